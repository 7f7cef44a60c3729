import Verif.Cert.EN1
import Verif.Cert.EN2
import Verif.Cert.EN3
import Verif.Cert.EN4
import Verif.EmbedSafe

/-! Generated by tools/gen_embcerts.py. -/

namespace Ohcount.Cert
open Ohcount.Ragel Ohcount.Gram

set_option maxRecDepth 100000

theorem clearsilverhtml_m0 : Emb.Clearsilverhtml.cshtml_comment.mach = ⟨emb39_nfa, [.none], false⟩ := by decide +kernel
theorem clearsilverhtml_m1 : Emb.Clearsilverhtml.cshtml_sq_str.mach = ⟨emb40_nfa, [.none], false⟩ := by decide +kernel
theorem clearsilverhtml_m2 : Emb.Clearsilverhtml.cshtml_dq_str.mach = ⟨emb41_nfa, [.none], false⟩ := by decide +kernel
theorem clearsilverhtml_m3 : Emb.Clearsilverhtml.cshtml_css_line.mach = ⟨emb0_nfa, [.none,.cb 1,.none,.none,.cb 1,.cb 1], true⟩ := by decide +kernel
theorem clearsilverhtml_m4 : Emb.Clearsilverhtml.cshtml_js_line.mach = ⟨emb1_nfa, [.none,.cb 2,.none,.none,.cb 2,.cb 2], true⟩ := by decide +kernel
theorem clearsilverhtml_m5 : Emb.Clearsilverhtml.cshtml_cs_line.mach = ⟨emb42_nfa, [.none,.cb 3,.none,.none,.cb 3,.cb 3], true⟩ := by decide +kernel
theorem clearsilverhtml_m6 : Emb.Clearsilverhtml.cshtml_line.mach = ⟨emb43_nfa, [.call 3,.call 4,.call 5,.cb 0,.goto 0,.goto 1,.goto 2,.cb 0,.cb 0], true⟩ := by decide +kernel
theorem clearsilverhtml_m7 : Emb.Clearsilverhtml.cshtml_css_entity.mach = ⟨emb3_nfa, [.none,.ecb 1,.ecb 1,.none], true⟩ := by decide +kernel
theorem clearsilverhtml_m8 : Emb.Clearsilverhtml.cshtml_js_entity.mach = ⟨emb4_nfa, [.none,.ecb 2,.ecb 2,.none], true⟩ := by decide +kernel
theorem clearsilverhtml_m9 : Emb.Clearsilverhtml.cshtml_cs_entity.mach = ⟨emb44_nfa, [.none,.ecb 3,.ecb 3,.none], true⟩ := by decide +kernel
theorem clearsilverhtml_m10 : Emb.Clearsilverhtml.cshtml_entity.mach = ⟨emb45_nfa, [.call 7,.call 8,.call 9,.ecb 0,.ecb 0,.none], true⟩ := by decide +kernel

/-- The machines of `Emb.Clearsilverhtml.parser`, with their automata as literals. -/
def clearsilverhtml_M : Multi := ⟨Emb.Clearsilverhtml.parser.sws, [
  ⟨emb39_nfa, [.none], false⟩,
  ⟨emb40_nfa, [.none], false⟩,
  ⟨emb41_nfa, [.none], false⟩,
  ⟨emb0_nfa, [.none,.cb 1,.none,.none,.cb 1,.cb 1], true⟩,
  ⟨emb1_nfa, [.none,.cb 2,.none,.none,.cb 2,.cb 2], true⟩,
  ⟨emb42_nfa, [.none,.cb 3,.none,.none,.cb 3,.cb 3], true⟩,
  ⟨emb43_nfa, [.call 3,.call 4,.call 5,.cb 0,.goto 0,.goto 1,.goto 2,.cb 0,.cb 0], true⟩,
  ⟨emb3_nfa, [.none,.ecb 1,.ecb 1,.none], true⟩,
  ⟨emb4_nfa, [.none,.ecb 2,.ecb 2,.none], true⟩,
  ⟨emb44_nfa, [.none,.ecb 3,.ecb 3,.none], true⟩,
  ⟨emb45_nfa, [.call 7,.call 8,.call 9,.ecb 0,.ecb 0,.none], true⟩]⟩
theorem clearsilverhtml_M_eq : Emb.Clearsilverhtml.parser.multi = clearsilverhtml_M := by
  show Multi.mk _ [Emb.Clearsilverhtml.cshtml_comment.mach, Emb.Clearsilverhtml.cshtml_sq_str.mach, Emb.Clearsilverhtml.cshtml_dq_str.mach, Emb.Clearsilverhtml.cshtml_css_line.mach, Emb.Clearsilverhtml.cshtml_js_line.mach, Emb.Clearsilverhtml.cshtml_cs_line.mach, Emb.Clearsilverhtml.cshtml_line.mach, Emb.Clearsilverhtml.cshtml_css_entity.mach, Emb.Clearsilverhtml.cshtml_js_entity.mach, Emb.Clearsilverhtml.cshtml_cs_entity.mach, Emb.Clearsilverhtml.cshtml_entity.mach] = _
  rw [clearsilverhtml_m0, clearsilverhtml_m1, clearsilverhtml_m2, clearsilverhtml_m3, clearsilverhtml_m4, clearsilverhtml_m5, clearsilverhtml_m6, clearsilverhtml_m7, clearsilverhtml_m8, clearsilverhtml_m9, clearsilverhtml_m10]; rfl

def clearsilverhtml_line : EOpt := ⟨false, false, false, [(6,false),(3,true),(4,true),(5,true),(0,false),(1,false),(2,false)], 4⟩
def clearsilverhtml_line_tab6false : List (List EA) := [[⟨0,0,false,none,none,none,false,false,0⟩],[⟨1,0,false,some (.own 0),some 3,none,false,true,0⟩,⟨2,0,false,some (.own 0),some 3,none,false,true,0⟩,⟨3,0,false,some (.own 0),some 3,none,false,true,0⟩],[⟨1,0,false,some .newline,none,none,false,false,0⟩],[⟨1,0,false,some .newline,some 7,none,false,false,0⟩],[⟨1,0,false,some (.own 5),some 8,none,false,true,0⟩],[⟨2,0,false,some (.own 5),some 8,none,false,true,0⟩],[⟨2,0,false,some (.own 5),some 8,none,false,true,0⟩],[⟨2,0,false,some (.own 5),some 8,none,false,true,0⟩],[⟨3,0,false,some (.own 5),some 8,none,false,true,0⟩],[⟨3,0,false,some (.own 5),some 8,none,false,true,0⟩],[⟨3,0,false,some (.own 5),some 8,none,false,true,0⟩],[⟨3,0,false,some (.own 5),some 8,none,false,true,0⟩],[⟨3,0,false,some (.own 5),some 8,none,false,true,0⟩],[⟨3,0,false,some (.own 5),some 8,none,false,true,0⟩],[⟨3,0,false,some (.own 5),some 8,none,false,true,0⟩],[⟨3,0,false,some (.own 5),some 8,none,false,true,0⟩],[⟨3,0,false,some (.own 5),some 8,none,false,true,0⟩],[⟨3,0,false,some (.own 5),some 8,none,false,true,0⟩],[⟨3,0,false,some (.own 5),some 8,none,false,true,0⟩],[⟨3,0,false,some (.own 5),some 8,none,false,true,0⟩],[⟨3,0,false,some (.own 5),some 8,none,false,true,0⟩],[⟨3,0,false,some (.own 5),some 8,none,false,true,0⟩],[⟨3,0,false,some (.own 5),some 8,none,false,true,0⟩],[⟨3,0,false,some (.own 5),some 8,none,false,true,0⟩],[⟨3,0,false,some (.own 5),some 8,none,false,true,0⟩],[⟨3,0,false,some (.own 5),some 8,none,false,true,0⟩],[⟨3,0,false,some (.own 5),some 8,none,false,true,0⟩],[⟨3,0,false,some (.own 5),some 8,none,false,true,0⟩],[⟨3,0,false,some (.own 5),some 8,none,false,true,0⟩],[⟨3,0,false,some (.own 5),some 8,none,false,true,0⟩],[⟨3,0,false,some (.own 5),some 8,none,false,true,0⟩],[⟨3,0,false,some (.own 5),some 8,none,false,true,0⟩],[⟨3,0,false,some (.own 5),some 8,none,false,true,0⟩],[⟨3,0,false,some (.own 5),some 8,none,false,true,0⟩],[⟨3,0,false,some (.own 5),some 8,none,false,true,0⟩],[⟨3,0,false,some (.own 5),some 8,none,false,true,0⟩],[⟨3,0,false,some (.own 5),some 8,none,false,true,0⟩],[⟨3,0,false,some (.own 5),some 8,none,false,true,0⟩],[⟨3,0,false,some (.own 5),some 8,none,false,true,0⟩],[⟨3,0,false,some (.own 5),some 8,none,false,true,0⟩],[⟨3,0,false,some (.own 5),some 8,none,false,true,0⟩],[⟨3,0,false,some (.own 5),some 8,none,false,true,0⟩],[⟨3,0,false,some (.own 5),some 8,none,false,true,0⟩],[⟨3,0,false,some (.own 5),some 8,none,false,true,0⟩],[⟨3,0,false,some (.own 5),some 8,none,false,true,0⟩],[⟨3,0,false,some (.own 5),some 8,none,false,true,0⟩]]
theorem clearsilverhtml_line_closed6false : closed emb43_rows clearsilverhtml_line_tab6false (EA.start clearsilverhtml_M clearsilverhtml_line 6) (EA.succ clearsilverhtml_M clearsilverhtml_line (6, false)) (EA.eofOk clearsilverhtml_M clearsilverhtml_line (6, false)) = true := by
  decide +kernel
def clearsilverhtml_line_C6false : MCert clearsilverhtml_M clearsilverhtml_line (6, false) := ⟨emb43_D, clearsilverhtml_line_tab6false, clearsilverhtml_line_closed6false, (fun h => nomatch h)⟩
def clearsilverhtml_line_tab3true : List (List EA) := [[⟨0,0,false,none,none,none,false,false,0⟩],[⟨1,0,false,some (.own 0),some 1,none,false,true,0⟩,⟨2,0,false,some (.own 0),some 1,none,false,true,0⟩,⟨3,0,false,some (.own 0),some 1,none,false,true,0⟩],[⟨1,0,false,some .newline,none,none,false,false,0⟩],[⟨1,0,false,some .newline,some 4,none,false,false,0⟩],[⟨1,0,true,some (.own 9),some 5,none,true,true,0⟩],[⟨1,0,true,some (.own 9),some 5,none,true,true,0⟩],[⟨1,0,false,some (.own 9),some 5,none,false,true,0⟩],[⟨1,0,false,some (.own 9),some 5,none,false,true,0⟩],[⟨2,0,true,some (.own 9),some 5,none,true,true,0⟩,⟨3,0,true,some (.own 9),some 5,none,true,true,0⟩,⟨3,0,true,some .internalNl,some 5,none,true,true,0⟩],[⟨2,0,true,some (.own 9),some 5,none,true,true,0⟩,⟨3,0,true,some (.own 9),some 5,none,true,true,0⟩,⟨3,0,true,some .internalNl,some 5,none,false,true,0⟩,⟨3,0,true,some .internalNl,some 5,none,true,true,0⟩],[⟨2,0,true,some (.own 9),some 5,none,true,true,0⟩,⟨3,0,true,some (.own 9),some 5,none,true,true,0⟩,⟨3,0,true,some .internalNl,some 5,none,false,true,0⟩,⟨3,0,true,some .internalNl,some 5,none,true,true,0⟩],[⟨2,0,true,some (.own 9),some 5,none,true,true,0⟩,⟨3,0,true,some (.own 9),some 5,none,true,true,0⟩,⟨3,0,true,some .internalNl,some 5,none,false,true,0⟩,⟨3,0,true,some .internalNl,some 5,none,true,true,0⟩],[⟨2,0,true,some (.own 9),some 5,none,true,true,0⟩,⟨3,0,true,some (.own 9),some 5,none,true,true,0⟩,⟨3,0,true,some .internalNl,some 5,none,false,true,0⟩,⟨3,0,true,some .internalNl,some 5,none,true,true,0⟩],[⟨2,0,true,some (.own 9),some 5,none,true,true,0⟩,⟨3,0,true,some (.own 9),some 5,none,true,true,0⟩,⟨3,0,true,some .internalNl,some 5,none,false,true,0⟩,⟨3,0,true,some .internalNl,some 5,none,true,true,0⟩],[⟨2,0,true,some (.own 9),some 5,none,true,true,0⟩,⟨3,0,true,some (.own 9),some 5,none,true,true,0⟩,⟨3,0,true,some .internalNl,some 5,none,false,true,0⟩,⟨3,0,true,some .internalNl,some 5,none,true,true,0⟩],[⟨2,0,true,some (.own 9),some 5,none,true,true,0⟩,⟨3,0,true,some (.own 9),some 5,none,true,true,0⟩,⟨3,0,true,some .internalNl,some 5,none,true,true,0⟩],[⟨2,0,true,some (.own 9),some 5,none,true,true,0⟩,⟨3,0,true,some (.own 9),some 5,none,true,true,0⟩,⟨3,0,true,some .internalNl,some 5,none,false,true,0⟩,⟨3,0,true,some .internalNl,some 5,none,true,true,0⟩],[⟨2,0,true,some (.own 9),some 5,none,true,true,0⟩,⟨3,0,true,some (.own 9),some 5,none,true,true,0⟩,⟨3,0,true,some .internalNl,some 5,none,false,true,0⟩,⟨3,0,true,some .internalNl,some 5,none,true,true,0⟩],[⟨2,0,true,some (.own 9),some 5,none,true,true,0⟩,⟨3,0,true,some (.own 9),some 5,none,true,true,0⟩,⟨3,0,true,some .internalNl,some 5,none,false,true,0⟩,⟨3,0,true,some .internalNl,some 5,none,true,true,0⟩],[⟨2,0,true,some (.own 9),some 5,none,true,true,0⟩,⟨3,0,true,some (.own 9),some 5,none,true,true,0⟩,⟨3,0,true,some .internalNl,some 5,none,false,true,0⟩,⟨3,0,true,some .internalNl,some 5,none,true,true,0⟩],[⟨2,0,true,some (.own 9),some 5,none,true,true,0⟩,⟨3,0,true,some (.own 9),some 5,none,true,true,0⟩,⟨3,0,true,some .internalNl,some 5,none,false,true,0⟩,⟨3,0,true,some .internalNl,some 5,none,true,true,0⟩],[⟨2,0,true,some (.own 9),some 5,none,true,true,0⟩,⟨3,0,true,some (.own 9),some 5,none,true,true,0⟩,⟨3,0,true,some .internalNl,some 5,none,false,true,0⟩,⟨3,0,true,some .internalNl,some 5,none,true,true,0⟩],[⟨2,0,true,some (.own 9),some 5,none,false,true,0⟩],[⟨2,0,false,some (.own 9),some 5,none,false,true,0⟩],[⟨3,0,true,some (.own 9),some 5,none,true,true,0⟩,⟨3,0,true,some .internalNl,some 5,none,false,true,0⟩,⟨3,0,true,some .internalNl,some 5,none,true,true,0⟩],[⟨3,0,true,some .internalNl,some 5,none,false,true,0⟩],[⟨3,0,true,some (.own 9),some 5,none,true,true,0⟩,⟨3,0,true,some .internalNl,some 5,none,true,true,0⟩],[⟨3,0,true,some (.own 9),some 5,none,true,true,0⟩,⟨3,0,true,some .internalNl,some 5,none,false,true,0⟩,⟨3,0,true,some .internalNl,some 5,none,true,true,0⟩],[⟨3,0,true,some .internalNl,some 5,none,false,true,0⟩],[⟨3,0,true,some (.own 9),some 5,none,true,true,0⟩,⟨3,0,true,some .internalNl,some 5,none,true,true,0⟩],[⟨3,0,true,some (.own 9),some 5,none,false,true,0⟩,⟨3,0,true,some .internalNl,some 5,none,false,true,0⟩],[⟨3,0,true,some (.own 9),some 5,none,false,true,0⟩,⟨3,0,true,some .internalNl,some 5,none,false,true,0⟩],[⟨3,0,true,some (.own 9),some 5,none,false,true,0⟩,⟨3,0,true,some .internalNl,some 5,none,false,true,0⟩],[⟨3,0,true,some (.own 9),some 5,none,false,true,0⟩,⟨3,0,true,some .internalNl,some 5,none,false,true,0⟩],[⟨3,0,true,some (.own 9),some 5,none,false,true,0⟩,⟨3,0,true,some .internalNl,some 5,none,false,true,0⟩],[⟨3,0,true,some (.own 9),some 5,none,false,true,0⟩,⟨3,0,true,some .internalNl,some 5,none,false,true,0⟩],[⟨3,0,true,some (.own 9),some 5,none,false,true,0⟩,⟨3,0,true,some .internalNl,some 5,none,false,true,0⟩],[⟨3,0,false,some (.own 9),some 5,none,false,true,0⟩],[⟨3,0,true,some (.own 9),some 5,none,false,true,0⟩,⟨3,0,true,some .internalNl,some 5,none,false,true,0⟩],[⟨3,0,true,some .internalNl,some 5,none,false,true,0⟩],[⟨3,0,false,some (.own 9),some 5,none,false,true,0⟩],[⟨3,0,false,some (.own 9),some 5,none,false,true,0⟩],[⟨3,0,false,some (.own 9),some 5,none,false,true,0⟩],[⟨3,0,false,some (.own 9),some 5,none,false,true,0⟩],[⟨3,0,false,some (.own 9),some 5,none,false,true,0⟩,⟨3,0,true,some .internalNl,some 5,none,false,true,0⟩],[⟨3,0,false,some .internalNl,some 5,none,false,true,0⟩,⟨3,0,true,some .internalNl,some 5,none,false,true,0⟩],[⟨3,0,false,some .internalNl,some 5,none,false,true,0⟩,⟨3,0,true,some .internalNl,some 5,none,false,true,0⟩],[⟨3,0,false,some (.own 9),some 5,none,false,true,0⟩,⟨3,0,true,some .internalNl,some 5,none,false,true,0⟩],[⟨3,0,false,some .internalNl,some 5,none,false,true,0⟩,⟨3,0,true,some .internalNl,some 5,none,false,true,0⟩],[⟨3,0,false,some .internalNl,some 5,none,false,true,0⟩,⟨3,0,true,some .internalNl,some 5,none,false,true,0⟩],[⟨3,0,true,some .internalNl,some 5,none,false,true,0⟩]]
theorem clearsilverhtml_line_closed3true : closed emb0_rows clearsilverhtml_line_tab3true (EA.start clearsilverhtml_M clearsilverhtml_line 3) (EA.succ clearsilverhtml_M clearsilverhtml_line (3, true)) (EA.eofOk clearsilverhtml_M clearsilverhtml_line (3, true)) = true := by
  decide +kernel
def clearsilverhtml_line_C3true : MCert clearsilverhtml_M clearsilverhtml_line (3, true) := ⟨emb0_D, clearsilverhtml_line_tab3true, clearsilverhtml_line_closed3true, (fun h => nomatch h)⟩
def clearsilverhtml_line_tab4true : List (List EA) := [[⟨0,0,false,none,none,none,false,false,0⟩],[⟨1,0,false,some (.own 0),some 1,none,false,true,0⟩,⟨2,0,false,some (.own 0),some 1,none,false,true,0⟩,⟨3,0,false,some (.own 0),some 1,none,false,true,0⟩],[⟨1,0,false,some .newline,none,none,false,false,0⟩],[⟨1,0,false,some .newline,some 4,none,false,false,0⟩],[⟨1,0,true,some (.own 7),some 5,none,true,true,0⟩],[⟨1,0,true,some (.own 7),some 5,none,true,true,0⟩],[⟨1,0,false,some (.own 7),some 5,none,false,true,0⟩],[⟨1,0,false,some (.own 7),some 5,none,false,true,0⟩],[⟨2,0,true,some (.own 7),some 5,none,true,true,0⟩,⟨3,0,true,some (.own 7),some 5,none,true,true,0⟩,⟨3,0,true,some .internalNl,some 5,none,true,true,0⟩],[⟨2,0,true,some (.own 7),some 5,none,true,true,0⟩,⟨3,0,true,some (.own 7),some 5,none,true,true,0⟩,⟨3,0,true,some .internalNl,some 5,none,false,true,0⟩,⟨3,0,true,some .internalNl,some 5,none,true,true,0⟩],[⟨2,0,true,some (.own 7),some 5,none,true,true,0⟩,⟨3,0,true,some (.own 7),some 5,none,true,true,0⟩,⟨3,0,true,some .internalNl,some 5,none,false,true,0⟩,⟨3,0,true,some .internalNl,some 5,none,true,true,0⟩],[⟨2,0,true,some (.own 7),some 5,none,true,true,0⟩,⟨3,0,true,some (.own 7),some 5,none,true,true,0⟩,⟨3,0,true,some .internalNl,some 5,none,true,true,0⟩],[⟨2,0,true,some (.own 7),some 5,none,true,true,0⟩,⟨3,0,true,some (.own 7),some 5,none,true,true,0⟩,⟨3,0,true,some .internalNl,some 5,none,false,true,0⟩,⟨3,0,true,some .internalNl,some 5,none,true,true,0⟩],[⟨2,0,true,some (.own 7),some 5,none,true,true,0⟩,⟨3,0,true,some (.own 7),some 5,none,true,true,0⟩,⟨3,0,true,some .internalNl,some 5,none,false,true,0⟩,⟨3,0,true,some .internalNl,some 5,none,true,true,0⟩],[⟨2,0,false,some (.own 7),some 5,none,false,true,0⟩],[⟨2,0,true,some (.own 7),some 5,none,false,true,0⟩],[⟨2,0,true,some (.own 7),some 2,none,false,true,0⟩],[⟨2,0,false,some (.own 7),some 5,none,false,true,0⟩],[⟨3,0,true,some (.own 7),some 5,none,true,true,0⟩,⟨3,0,true,some .internalNl,some 5,none,true,true,0⟩],[⟨3,0,true,some (.own 7),some 5,none,true,true,0⟩,⟨3,0,true,some .internalNl,some 5,none,false,true,0⟩,⟨3,0,true,some .internalNl,some 5,none,true,true,0⟩],[⟨3,0,true,some (.own 7),some 5,none,true,true,0⟩,⟨3,0,true,some .internalNl,some 5,none,false,true,0⟩,⟨3,0,true,some .internalNl,some 5,none,true,true,0⟩],[⟨3,0,true,some (.own 7),some 5,none,true,true,0⟩,⟨3,0,true,some .internalNl,some 5,none,false,true,0⟩,⟨3,0,true,some .internalNl,some 5,none,true,true,0⟩],[⟨3,0,true,some (.own 7),some 5,none,true,true,0⟩,⟨3,0,true,some .internalNl,some 5,none,false,true,0⟩,⟨3,0,true,some .internalNl,some 5,none,true,true,0⟩],[⟨3,0,true,some (.own 7),some 5,none,true,true,0⟩,⟨3,0,true,some .internalNl,some 5,none,true,true,0⟩],[⟨3,0,true,some (.own 7),some 5,none,true,true,0⟩,⟨3,0,true,some .internalNl,some 5,none,false,true,0⟩,⟨3,0,true,some .internalNl,some 5,none,true,true,0⟩],[⟨3,0,true,some (.own 7),some 5,none,true,true,0⟩,⟨3,0,true,some .internalNl,some 5,none,false,true,0⟩,⟨3,0,true,some .internalNl,some 5,none,true,true,0⟩],[⟨3,0,true,some (.own 7),some 5,none,true,true,0⟩,⟨3,0,true,some .internalNl,some 5,none,false,true,0⟩,⟨3,0,true,some .internalNl,some 5,none,true,true,0⟩],[⟨3,0,true,some (.own 7),some 5,none,true,true,0⟩,⟨3,0,true,some .internalNl,some 5,none,false,true,0⟩,⟨3,0,true,some .internalNl,some 5,none,true,true,0⟩],[⟨3,0,false,some (.own 7),some 5,none,false,true,0⟩],[⟨3,0,false,some (.own 7),some 5,none,false,true,0⟩],[⟨3,0,true,some (.own 7),some 5,none,false,true,0⟩,⟨3,0,true,some .internalNl,some 5,none,false,true,0⟩],[⟨3,0,true,some (.own 7),some 5,none,false,true,0⟩,⟨3,0,true,some .internalNl,some 5,none,false,true,0⟩],[⟨3,0,true,some (.own 7),some 5,none,false,true,0⟩,⟨3,0,true,some .internalNl,some 5,none,false,true,0⟩],[⟨3,0,true,some (.own 7),some 5,none,false,true,0⟩,⟨3,0,true,some .internalNl,some 5,none,false,true,0⟩],[⟨3,0,true,some (.own 7),some 5,none,false,true,0⟩,⟨3,0,true,some .internalNl,some 5,none,false,true,0⟩],[⟨3,0,true,some (.own 7),some 5,none,false,true,0⟩,⟨3,0,true,some .internalNl,some 5,none,false,true,0⟩],[⟨3,0,true,some (.own 7),some 5,none,false,true,0⟩,⟨3,0,true,some .internalNl,some 5,none,false,true,0⟩],[⟨3,0,true,some (.own 7),some 2,none,false,true,0⟩],[⟨3,0,false,some (.own 7),some 5,none,false,true,0⟩],[⟨3,0,true,some (.own 7),some 5,none,true,true,0⟩,⟨3,0,true,some .internalNl,some 5,none,false,true,0⟩,⟨3,0,true,some .internalNl,some 5,none,true,true,0⟩],[⟨3,0,true,some .internalNl,some 5,none,true,true,0⟩],[⟨3,0,true,some (.own 7),some 5,none,true,true,0⟩,⟨3,0,true,some .internalNl,some 5,none,false,true,0⟩,⟨3,0,true,some .internalNl,some 5,none,true,true,0⟩],[⟨3,0,true,some .internalNl,some 5,none,true,true,0⟩],[⟨3,0,false,some (.own 7),some 5,none,false,true,0⟩],[⟨3,0,true,some (.own 7),some 5,none,false,true,0⟩,⟨3,0,true,some .internalNl,some 5,none,false,true,0⟩],[⟨3,0,true,some .internalNl,some 5,none,false,true,0⟩],[⟨3,0,false,some (.own 7),some 5,none,false,true,0⟩],[⟨3,0,false,some (.own 7),some 5,none,false,true,0⟩],[⟨3,0,false,some (.own 7),some 5,none,false,true,0⟩],[⟨3,0,false,some (.own 7),some 5,none,false,true,0⟩],[⟨3,0,false,some (.own 7),some 5,none,false,true,0⟩],[⟨3,0,false,some (.own 7),some 5,none,false,true,0⟩,⟨3,0,true,some .internalNl,some 5,none,false,true,0⟩],[⟨3,0,false,some .internalNl,some 5,none,false,true,0⟩,⟨3,0,true,some .internalNl,some 5,none,false,true,0⟩],[⟨3,0,false,some .internalNl,some 5,none,false,true,0⟩,⟨3,0,true,some .internalNl,some 5,none,false,true,0⟩],[⟨3,0,false,some (.own 7),some 5,none,false,true,0⟩,⟨3,0,true,some .internalNl,some 5,none,false,true,0⟩],[⟨3,0,false,some .internalNl,some 5,none,false,true,0⟩,⟨3,0,true,some .internalNl,some 5,none,false,true,0⟩],[⟨3,0,false,some .internalNl,some 5,none,false,true,0⟩,⟨3,0,true,some .internalNl,some 5,none,false,true,0⟩],[⟨3,0,true,some .internalNl,some 5,none,false,true,0⟩]]
theorem clearsilverhtml_line_closed4true : closed emb1_rows clearsilverhtml_line_tab4true (EA.start clearsilverhtml_M clearsilverhtml_line 4) (EA.succ clearsilverhtml_M clearsilverhtml_line (4, true)) (EA.eofOk clearsilverhtml_M clearsilverhtml_line (4, true)) = true := by
  decide +kernel
def clearsilverhtml_line_C4true : MCert clearsilverhtml_M clearsilverhtml_line (4, true) := ⟨emb1_D, clearsilverhtml_line_tab4true, clearsilverhtml_line_closed4true, (fun h => nomatch h)⟩
def clearsilverhtml_line_tab5true : List (List EA) := [[⟨0,0,false,none,none,none,false,false,0⟩],[⟨1,0,false,some (.own 0),some 1,none,false,true,0⟩,⟨2,0,false,some (.own 0),some 1,none,false,true,0⟩,⟨3,0,false,some (.own 0),some 1,none,false,true,0⟩],[⟨1,0,false,some .newline,none,none,false,false,0⟩],[⟨1,0,false,some .newline,some 4,none,false,false,0⟩],[⟨1,0,true,some (.own 3),some 5,none,true,true,0⟩],[⟨1,0,true,some (.own 3),some 2,none,false,true,0⟩],[⟨1,0,false,some (.own 3),some 5,none,false,true,0⟩],[⟨2,0,true,some (.own 3),some 5,none,true,true,0⟩,⟨3,0,true,some (.own 3),some 5,none,true,true,0⟩],[⟨2,0,true,some (.own 3),some 5,none,true,true,0⟩,⟨3,0,true,some (.own 3),some 5,none,true,true,0⟩],[⟨2,0,true,some (.own 3),some 2,none,false,true,0⟩,⟨3,0,true,some (.own 3),some 2,none,false,true,0⟩],[⟨3,0,true,some (.own 3),some 5,none,true,true,0⟩]]
theorem clearsilverhtml_line_closed5true : closed emb42_rows clearsilverhtml_line_tab5true (EA.start clearsilverhtml_M clearsilverhtml_line 5) (EA.succ clearsilverhtml_M clearsilverhtml_line (5, true)) (EA.eofOk clearsilverhtml_M clearsilverhtml_line (5, true)) = true := by
  decide +kernel
def clearsilverhtml_line_C5true : MCert clearsilverhtml_M clearsilverhtml_line (5, true) := ⟨emb42_D, clearsilverhtml_line_tab5true, clearsilverhtml_line_closed5true, (fun h => nomatch h)⟩
def clearsilverhtml_line_tab0false : List (List EA) := [[⟨0,0,true,none,none,none,false,false,0⟩],[⟨0,0,true,none,none,none,false,false,0⟩,⟨0,0,true,some .internalNl,none,none,false,true,0⟩],[⟨0,0,true,none,none,none,false,false,0⟩,⟨0,0,true,some .internalNl,none,none,false,true,0⟩],[⟨0,0,true,none,none,none,false,false,0⟩,⟨0,0,true,some .internalNl,none,none,false,true,0⟩],[⟨0,0,true,none,none,none,false,false,0⟩,⟨0,0,true,some .internalNl,none,none,false,true,0⟩],[⟨0,0,true,none,none,none,false,false,0⟩,⟨0,0,true,some .internalNl,none,none,false,true,0⟩],[⟨0,0,true,none,none,none,false,false,0⟩,⟨0,0,true,some .internalNl,none,none,false,true,0⟩],[⟨0,0,true,none,none,none,false,false,0⟩,⟨0,0,true,some .internalNl,none,none,false,true,0⟩],[⟨0,0,true,none,none,none,false,false,0⟩,⟨0,0,true,some .internalNl,none,none,false,true,0⟩],[⟨0,0,true,none,none,none,false,false,0⟩,⟨0,0,true,some .internalNl,none,none,false,true,0⟩],[⟨0,0,true,some .internalNl,none,none,false,true,0⟩],[⟨0,0,true,none,none,none,false,false,0⟩,⟨0,0,true,some .internalNl,none,none,false,true,0⟩],[⟨0,0,true,none,none,none,false,false,0⟩,⟨0,0,true,some .internalNl,none,none,false,true,0⟩],[⟨0,0,true,none,none,none,false,false,0⟩,⟨0,0,true,some .internalNl,none,none,false,true,0⟩],[⟨0,0,true,none,none,none,false,false,0⟩,⟨0,0,true,some .internalNl,none,none,false,true,0⟩],[⟨0,0,true,none,none,none,false,false,0⟩,⟨0,0,true,some .internalNl,none,none,false,true,0⟩],[⟨0,0,true,none,none,none,false,false,0⟩,⟨0,0,true,some .internalNl,none,none,false,true,0⟩],[⟨0,0,true,none,none,none,false,false,0⟩,⟨0,0,true,some .internalNl,none,none,false,true,0⟩],[⟨0,0,true,none,none,none,false,false,0⟩,⟨0,0,true,some .internalNl,none,none,false,true,0⟩],[⟨0,0,true,none,none,none,false,false,0⟩,⟨0,0,true,some .internalNl,none,none,false,true,0⟩],[⟨0,0,true,none,none,none,false,false,0⟩,⟨0,0,true,some .internalNl,none,none,false,true,0⟩],[⟨0,0,true,none,none,none,false,false,0⟩,⟨0,0,true,some .internalNl,none,none,false,true,0⟩],[⟨0,0,true,none,none,none,false,false,0⟩,⟨0,0,true,some .internalNl,none,none,false,true,0⟩],[⟨0,0,true,none,none,none,false,false,0⟩,⟨0,0,true,some .internalNl,none,none,false,true,0⟩,⟨0,0,false,none,none,none,false,false,0⟩],[⟨0,0,true,none,none,none,false,false,0⟩,⟨0,0,true,some .internalNl,none,none,false,true,0⟩,⟨0,0,false,none,none,none,false,false,0⟩],[⟨0,0,true,none,none,none,false,false,0⟩,⟨0,0,true,some .internalNl,none,none,false,true,0⟩,⟨0,0,false,none,none,none,false,false,0⟩],[⟨0,0,true,none,none,none,false,false,0⟩,⟨0,0,true,some .internalNl,none,none,false,true,0⟩,⟨0,0,false,none,none,none,false,false,0⟩],[⟨0,0,true,none,none,none,false,false,0⟩,⟨0,0,true,some .internalNl,none,none,false,true,0⟩,⟨0,0,false,none,none,none,false,false,0⟩],[⟨0,0,true,none,none,none,false,false,0⟩,⟨0,0,true,some .internalNl,none,none,false,true,0⟩,⟨0,0,false,none,none,none,false,false,0⟩],[⟨0,0,true,none,none,none,false,false,0⟩,⟨0,0,true,some .internalNl,none,none,false,true,0⟩,⟨0,0,false,none,none,none,false,false,0⟩],[⟨0,0,true,none,none,none,false,false,0⟩,⟨0,0,true,some .internalNl,none,none,false,true,0⟩,⟨0,0,false,none,none,none,false,false,0⟩],[⟨0,0,true,none,none,none,false,false,0⟩,⟨0,0,true,some .internalNl,none,none,false,true,0⟩,⟨0,0,false,none,none,none,false,false,0⟩],[⟨0,0,true,none,none,none,false,false,0⟩,⟨0,0,true,some .internalNl,none,none,false,true,0⟩,⟨0,0,false,none,none,none,false,false,0⟩],[⟨0,0,true,none,none,none,false,false,0⟩,⟨0,0,true,some .internalNl,none,none,false,true,0⟩],[⟨0,0,true,none,none,none,false,false,0⟩,⟨0,0,true,some .internalNl,none,none,false,true,0⟩,⟨0,0,false,none,none,none,false,false,0⟩],[⟨0,0,true,none,none,none,false,false,0⟩,⟨0,0,true,some .internalNl,none,none,false,true,0⟩,⟨0,0,false,none,none,none,false,false,0⟩],[⟨0,0,true,none,none,none,false,false,0⟩,⟨0,0,true,some .internalNl,none,none,false,true,0⟩,⟨0,0,false,none,none,none,false,false,0⟩],[⟨0,0,true,none,none,none,false,false,0⟩,⟨0,0,true,some .internalNl,none,none,false,true,0⟩,⟨0,0,false,none,none,none,false,false,0⟩],[⟨0,0,true,none,none,none,false,false,0⟩,⟨0,0,true,some .internalNl,none,none,false,true,0⟩,⟨0,0,false,none,none,none,false,false,0⟩],[⟨0,0,true,none,none,none,false,false,0⟩,⟨0,0,true,some .internalNl,none,none,false,true,0⟩,⟨0,0,false,none,none,none,false,false,0⟩],[⟨0,0,true,none,none,none,false,false,0⟩,⟨0,0,true,some .internalNl,none,none,false,true,0⟩,⟨0,0,false,none,none,none,false,false,0⟩],[⟨0,0,true,none,none,none,false,false,0⟩,⟨0,0,true,some .internalNl,none,none,false,true,0⟩,⟨0,0,false,none,none,none,false,false,0⟩],[⟨0,0,true,none,none,none,false,false,0⟩,⟨0,0,true,some .internalNl,none,none,false,true,0⟩],[⟨0,0,true,none,none,none,false,false,0⟩,⟨0,0,true,some .internalNl,none,none,false,true,0⟩],[⟨0,0,true,none,none,none,false,false,0⟩,⟨0,0,true,some .internalNl,none,none,false,true,0⟩],[⟨0,0,true,none,none,none,false,false,0⟩,⟨0,0,true,some .internalNl,none,none,false,true,0⟩],[⟨0,0,true,none,none,none,false,false,0⟩,⟨0,0,true,some .internalNl,none,none,false,true,0⟩],[⟨0,0,true,none,none,none,false,false,0⟩,⟨0,0,true,some .internalNl,none,none,false,true,0⟩],[⟨0,0,true,none,none,none,false,false,0⟩,⟨0,0,true,some .internalNl,none,none,false,true,0⟩],[⟨0,0,true,none,none,none,false,false,0⟩,⟨0,0,true,some .internalNl,none,none,false,true,0⟩],[⟨0,0,true,none,none,none,false,false,0⟩,⟨0,0,true,some .internalNl,none,none,false,true,0⟩],[⟨0,0,true,none,none,none,false,false,0⟩,⟨0,0,true,some .internalNl,none,none,false,true,0⟩],[⟨0,0,true,none,none,none,false,false,0⟩,⟨0,0,true,some .internalNl,none,none,false,true,0⟩],[⟨0,0,true,none,none,none,false,false,0⟩,⟨0,0,true,some .internalNl,none,none,false,true,0⟩],[⟨0,0,true,none,none,none,false,false,0⟩,⟨0,0,true,some .internalNl,none,none,false,true,0⟩],[⟨0,0,true,none,none,none,false,false,0⟩,⟨0,0,true,some .internalNl,none,none,false,true,0⟩],[⟨0,0,true,none,none,none,false,false,0⟩,⟨0,0,true,some .internalNl,none,none,false,true,0⟩],[⟨0,0,true,none,none,none,false,false,0⟩,⟨0,0,true,some .internalNl,none,none,false,true,0⟩],[⟨0,0,true,none,none,none,false,false,0⟩,⟨0,0,true,some .internalNl,none,none,false,true,0⟩],[⟨0,0,true,none,none,none,false,false,0⟩,⟨0,0,true,some .internalNl,none,none,false,true,0⟩],[⟨0,0,true,none,none,none,false,false,0⟩,⟨0,0,true,some .internalNl,none,none,false,true,0⟩],[⟨0,0,true,none,none,none,false,false,0⟩,⟨0,0,true,some .internalNl,none,none,false,true,0⟩],[⟨0,0,true,none,none,none,false,false,0⟩,⟨0,0,true,some .internalNl,none,none,false,true,0⟩],[⟨0,0,true,none,none,none,false,false,0⟩,⟨0,0,true,some .internalNl,none,none,false,true,0⟩],[⟨0,0,true,none,none,none,false,false,0⟩,⟨0,0,true,some .internalNl,none,none,false,true,0⟩],[⟨0,0,true,none,none,none,false,false,0⟩,⟨0,0,true,some .internalNl,none,none,false,true,0⟩],[⟨0,0,true,none,none,none,false,false,0⟩,⟨0,0,true,some .internalNl,none,none,false,true,0⟩],[⟨0,0,true,none,none,none,false,false,0⟩,⟨0,0,true,some .internalNl,none,none,false,true,0⟩],[⟨0,0,true,none,none,none,false,false,0⟩,⟨0,0,true,some .internalNl,none,none,false,true,0⟩],[⟨0,0,true,none,none,none,false,false,0⟩,⟨0,0,true,some .internalNl,none,none,false,true,0⟩],[⟨0,0,true,none,none,none,false,false,0⟩,⟨0,0,true,some .internalNl,none,none,false,true,0⟩],[⟨0,0,true,none,none,none,false,false,0⟩,⟨0,0,true,some .internalNl,none,none,false,true,0⟩],[⟨0,0,false,none,none,none,false,false,0⟩],[⟨0,0,true,none,none,none,false,false,0⟩,⟨0,0,true,some .internalNl,none,none,false,true,0⟩],[⟨0,0,true,none,none,none,false,false,0⟩,⟨0,0,true,some .internalNl,none,none,false,true,0⟩],[⟨0,0,true,none,none,none,false,false,0⟩,⟨0,0,true,some .internalNl,none,none,false,true,0⟩],[⟨0,0,true,none,none,none,false,false,0⟩,⟨0,0,true,some .internalNl,none,none,false,true,0⟩],[⟨0,0,true,none,none,none,false,false,0⟩,⟨0,0,true,some .internalNl,none,none,false,true,0⟩],[⟨0,0,true,none,none,none,false,false,0⟩,⟨0,0,true,some .internalNl,none,none,false,true,0⟩],[⟨0,0,true,none,none,none,false,false,0⟩,⟨0,0,true,some .internalNl,none,none,false,true,0⟩],[⟨0,0,true,none,none,none,false,false,0⟩,⟨0,0,true,some .internalNl,none,none,false,true,0⟩],[⟨0,0,true,none,none,none,false,false,0⟩,⟨0,0,true,some .internalNl,none,none,false,true,0⟩],[⟨0,0,false,none,none,none,false,false,0⟩],[⟨0,0,true,none,none,none,false,false,0⟩],[⟨0,0,false,none,none,none,false,false,0⟩],[⟨0,0,false,none,none,none,false,false,0⟩],[⟨0,0,false,none,none,none,false,false,0⟩],[⟨0,0,false,none,none,none,false,false,0⟩],[⟨0,0,false,none,none,none,false,false,0⟩],[⟨0,0,false,none,none,none,false,false,0⟩],[⟨0,0,false,none,none,none,false,false,0⟩],[⟨0,0,false,none,none,none,false,false,0⟩],[⟨0,0,true,none,none,none,false,false,0⟩],[⟨0,0,false,none,none,none,false,false,0⟩],[⟨0,0,false,none,none,none,false,false,0⟩],[⟨0,0,false,none,none,none,false,false,0⟩],[⟨0,0,false,none,none,none,false,false,0⟩],[⟨0,0,false,none,none,none,false,false,0⟩],[⟨0,0,false,none,none,none,false,false,0⟩],[⟨0,0,false,none,none,none,false,false,0⟩],[⟨0,0,false,none,none,none,false,false,0⟩]]
theorem clearsilverhtml_line_closed0false : closed emb39_rows clearsilverhtml_line_tab0false (EA.start clearsilverhtml_M clearsilverhtml_line 0) (EA.succ clearsilverhtml_M clearsilverhtml_line (0, false)) (EA.eofOk clearsilverhtml_M clearsilverhtml_line (0, false)) = true := by
  decide +kernel
def clearsilverhtml_line_C0false : MCert clearsilverhtml_M clearsilverhtml_line (0, false) := ⟨emb39_D, clearsilverhtml_line_tab0false, clearsilverhtml_line_closed0false, (fun h => nomatch h)⟩
def clearsilverhtml_line_tab1false : List (List EA) := [[⟨0,0,true,none,none,none,false,false,0⟩],[⟨0,0,true,none,none,none,true,false,0⟩,⟨0,0,true,some .internalNl,none,none,true,true,0⟩],[⟨0,0,true,none,none,none,false,false,0⟩,⟨0,0,true,none,none,none,true,false,0⟩,⟨0,0,true,some .internalNl,none,none,false,true,0⟩,⟨0,0,true,some .internalNl,none,none,true,true,0⟩],[⟨0,0,true,none,none,none,false,false,0⟩,⟨0,0,true,none,none,none,true,false,0⟩,⟨0,0,true,some .internalNl,none,none,false,true,0⟩,⟨0,0,true,some .internalNl,none,none,true,true,0⟩],[⟨0,0,true,none,none,none,false,false,0⟩,⟨0,0,true,none,none,none,true,false,0⟩,⟨0,0,true,some .internalNl,none,none,false,true,0⟩,⟨0,0,true,some .internalNl,none,none,true,true,0⟩],[⟨0,0,true,none,none,none,false,false,0⟩,⟨0,0,true,none,none,none,true,false,0⟩,⟨0,0,true,some .internalNl,none,none,false,true,0⟩,⟨0,0,true,some .internalNl,none,none,true,true,0⟩],[⟨0,0,true,none,none,none,false,false,0⟩,⟨0,0,true,none,none,none,true,false,0⟩,⟨0,0,true,some .internalNl,none,none,false,true,0⟩,⟨0,0,true,some .internalNl,none,none,true,true,0⟩],[⟨0,0,true,none,none,none,false,false,0⟩,⟨0,0,true,none,none,none,true,false,0⟩,⟨0,0,true,some .internalNl,none,none,false,true,0⟩,⟨0,0,true,some .internalNl,none,none,true,true,0⟩],[⟨0,0,true,none,none,none,false,false,0⟩,⟨0,0,true,none,none,none,true,false,0⟩,⟨0,0,true,some .internalNl,none,none,false,true,0⟩,⟨0,0,true,some .internalNl,none,none,true,true,0⟩],[⟨0,0,true,none,none,none,false,false,0⟩,⟨0,0,true,none,none,none,true,false,0⟩,⟨0,0,true,some .internalNl,none,none,false,true,0⟩,⟨0,0,true,some .internalNl,none,none,true,true,0⟩],[⟨0,0,true,some .internalNl,none,none,false,true,0⟩],[⟨0,0,true,none,none,none,true,false,0⟩,⟨0,0,true,some .internalNl,none,none,true,true,0⟩],[⟨0,0,true,none,none,none,false,false,0⟩,⟨0,0,true,none,none,none,true,false,0⟩,⟨0,0,true,some .internalNl,none,none,false,true,0⟩,⟨0,0,true,some .internalNl,none,none,true,true,0⟩],[⟨0,0,true,none,none,none,false,false,0⟩,⟨0,0,true,none,none,none,true,false,0⟩,⟨0,0,true,some .internalNl,none,none,false,true,0⟩,⟨0,0,true,some .internalNl,none,none,true,true,0⟩],[⟨0,0,true,none,none,none,false,false,0⟩,⟨0,0,true,none,none,none,true,false,0⟩,⟨0,0,true,some .internalNl,none,none,false,true,0⟩,⟨0,0,true,some .internalNl,none,none,true,true,0⟩],[⟨0,0,true,none,none,none,false,false,0⟩,⟨0,0,true,none,none,none,true,false,0⟩,⟨0,0,true,some .internalNl,none,none,false,true,0⟩,⟨0,0,true,some .internalNl,none,none,true,true,0⟩],[⟨0,0,true,none,none,none,false,false,0⟩,⟨0,0,true,none,none,none,true,false,0⟩,⟨0,0,true,some .internalNl,none,none,false,true,0⟩,⟨0,0,true,some .internalNl,none,none,true,true,0⟩],[],[⟨0,0,true,none,none,none,false,false,0⟩,⟨0,0,true,none,none,none,true,false,0⟩,⟨0,0,true,some .internalNl,none,none,false,true,0⟩,⟨0,0,true,some .internalNl,none,none,true,true,0⟩],[⟨0,0,true,none,none,none,true,false,0⟩,⟨0,0,true,some .internalNl,none,none,true,true,0⟩],[⟨0,0,true,none,none,none,false,false,0⟩,⟨0,0,true,none,none,none,true,false,0⟩,⟨0,0,true,some .internalNl,none,none,false,true,0⟩,⟨0,0,true,some .internalNl,none,none,true,true,0⟩],[⟨0,0,true,none,none,none,true,false,0⟩,⟨0,0,true,some .internalNl,none,none,true,true,0⟩],[⟨0,0,true,none,none,none,true,false,0⟩,⟨0,0,true,some .internalNl,none,none,true,true,0⟩],[⟨0,0,true,none,none,none,true,false,0⟩,⟨0,0,true,none,none,none,false,false,0⟩,⟨0,0,true,some .internalNl,none,none,false,true,0⟩,⟨0,0,true,some .internalNl,none,none,true,true,0⟩,⟨0,0,false,none,none,none,false,false,0⟩],[⟨0,0,true,none,none,none,true,false,0⟩,⟨0,0,true,none,none,none,false,false,0⟩,⟨0,0,true,some .internalNl,none,none,false,true,0⟩,⟨0,0,true,some .internalNl,none,none,true,true,0⟩,⟨0,0,false,none,none,none,false,false,0⟩],[⟨0,0,true,none,none,none,true,false,0⟩,⟨0,0,true,none,none,none,false,false,0⟩,⟨0,0,true,some .internalNl,none,none,false,true,0⟩,⟨0,0,true,some .internalNl,none,none,true,true,0⟩,⟨0,0,false,none,none,none,false,false,0⟩],[⟨0,0,true,none,none,none,true,false,0⟩,⟨0,0,true,none,none,none,false,false,0⟩,⟨0,0,true,some .internalNl,none,none,false,true,0⟩,⟨0,0,true,some .internalNl,none,none,true,true,0⟩,⟨0,0,false,none,none,none,false,false,0⟩],[⟨0,0,true,none,none,none,true,false,0⟩,⟨0,0,true,none,none,none,false,false,0⟩,⟨0,0,true,some .internalNl,none,none,false,true,0⟩,⟨0,0,true,some .internalNl,none,none,true,true,0⟩,⟨0,0,false,none,none,none,false,false,0⟩],[],[⟨0,0,true,none,none,none,true,false,0⟩,⟨0,0,true,none,none,none,false,false,0⟩,⟨0,0,true,some .internalNl,none,none,false,true,0⟩,⟨0,0,true,some .internalNl,none,none,true,true,0⟩,⟨0,0,false,none,none,none,false,false,0⟩],[⟨0,0,true,none,none,none,true,false,0⟩,⟨0,0,true,none,none,none,false,false,0⟩,⟨0,0,true,some .internalNl,none,none,false,true,0⟩,⟨0,0,true,some .internalNl,none,none,true,true,0⟩,⟨0,0,false,none,none,none,false,false,0⟩],[⟨0,0,true,none,none,none,false,false,0⟩,⟨0,0,true,some .internalNl,none,none,false,true,0⟩,⟨0,0,true,none,none,none,true,false,0⟩,⟨0,0,true,some .internalNl,none,none,true,true,0⟩,⟨0,0,false,none,none,none,false,false,0⟩],[⟨0,0,true,none,none,none,true,false,0⟩,⟨0,0,true,some .internalNl,none,none,true,true,0⟩],[⟨0,0,true,none,none,none,false,false,0⟩,⟨0,0,true,none,none,none,true,false,0⟩,⟨0,0,true,some .internalNl,none,none,false,true,0⟩,⟨0,0,true,some .internalNl,none,none,true,true,0⟩,⟨0,0,false,none,none,none,false,false,0⟩],[⟨0,0,true,none,none,none,false,false,0⟩,⟨0,0,true,none,none,none,true,false,0⟩,⟨0,0,true,some .internalNl,none,none,false,true,0⟩,⟨0,0,true,some .internalNl,none,none,true,true,0⟩,⟨0,0,false,none,none,none,false,false,0⟩],[⟨0,0,true,none,none,none,false,false,0⟩,⟨0,0,true,none,none,none,true,false,0⟩,⟨0,0,true,some .internalNl,none,none,false,true,0⟩,⟨0,0,true,some .internalNl,none,none,true,true,0⟩,⟨0,0,false,none,none,none,false,false,0⟩],[⟨0,0,true,none,none,none,false,false,0⟩,⟨0,0,true,none,none,none,true,false,0⟩,⟨0,0,true,some .internalNl,none,none,false,true,0⟩,⟨0,0,true,some .internalNl,none,none,true,true,0⟩,⟨0,0,false,none,none,none,false,false,0⟩],[⟨0,0,true,none,none,none,false,false,0⟩,⟨0,0,true,none,none,none,true,false,0⟩,⟨0,0,true,some .internalNl,none,none,false,true,0⟩,⟨0,0,true,some .internalNl,none,none,true,true,0⟩,⟨0,0,false,none,none,none,false,false,0⟩],[],[⟨0,0,true,none,none,none,false,false,0⟩,⟨0,0,true,none,none,none,true,false,0⟩,⟨0,0,true,some .internalNl,none,none,false,true,0⟩,⟨0,0,true,some .internalNl,none,none,true,true,0⟩,⟨0,0,false,none,none,none,false,false,0⟩],[⟨0,0,true,none,none,none,true,false,0⟩,⟨0,0,true,some .internalNl,none,none,true,true,0⟩],[⟨0,0,true,none,none,none,false,false,0⟩,⟨0,0,true,none,none,none,true,false,0⟩,⟨0,0,true,some .internalNl,none,none,false,true,0⟩,⟨0,0,true,some .internalNl,none,none,true,true,0⟩,⟨0,0,false,none,none,none,false,false,0⟩],[⟨0,0,true,none,none,none,true,false,0⟩,⟨0,0,true,some .internalNl,none,none,true,true,0⟩],[⟨0,0,true,none,none,none,true,false,0⟩,⟨0,0,true,some .internalNl,none,none,true,true,0⟩],[⟨0,0,true,none,none,none,true,false,0⟩,⟨0,0,true,some .internalNl,none,none,true,true,0⟩],[⟨0,0,true,none,none,none,true,false,0⟩,⟨0,0,true,some .internalNl,none,none,true,true,0⟩],[⟨0,0,true,none,none,none,true,false,0⟩,⟨0,0,true,some .internalNl,none,none,true,true,0⟩],[⟨0,0,true,none,none,none,true,false,0⟩,⟨0,0,true,some .internalNl,none,none,true,true,0⟩],[],[⟨0,0,true,none,none,none,true,false,0⟩,⟨0,0,true,some .internalNl,none,none,true,true,0⟩],[⟨0,0,true,none,none,none,true,false,0⟩,⟨0,0,true,some .internalNl,none,none,true,true,0⟩],[⟨0,0,true,none,none,none,true,false,0⟩,⟨0,0,true,some .internalNl,none,none,true,true,0⟩],[⟨0,0,true,none,none,none,true,false,0⟩,⟨0,0,true,some .internalNl,none,none,true,true,0⟩],[⟨0,0,true,none,none,none,true,false,0⟩,⟨0,0,true,some .internalNl,none,none,true,true,0⟩],[],[⟨0,0,true,none,none,none,true,false,0⟩,⟨0,0,true,some .internalNl,none,none,true,true,0⟩],[⟨0,0,true,none,none,none,true,false,0⟩,⟨0,0,true,some .internalNl,none,none,true,true,0⟩],[⟨0,0,true,none,none,none,true,false,0⟩,⟨0,0,true,some .internalNl,none,none,true,true,0⟩],[⟨0,0,true,none,none,none,true,false,0⟩,⟨0,0,true,some .internalNl,none,none,true,true,0⟩],[⟨0,0,true,none,none,none,true,false,0⟩,⟨0,0,true,some .internalNl,none,none,true,true,0⟩],[⟨0,0,true,none,none,none,true,false,0⟩,⟨0,0,true,some .internalNl,none,none,true,true,0⟩],[⟨0,0,true,none,none,none,true,false,0⟩,⟨0,0,true,some .internalNl,none,none,true,true,0⟩],[⟨0,0,true,none,none,none,true,false,0⟩,⟨0,0,true,some .internalNl,none,none,true,true,0⟩],[],[⟨0,0,true,none,none,none,true,false,0⟩,⟨0,0,true,some .internalNl,none,none,true,true,0⟩],[⟨0,0,true,none,none,none,true,false,0⟩,⟨0,0,true,some .internalNl,none,none,true,true,0⟩],[⟨0,0,true,none,none,none,true,false,0⟩,⟨0,0,true,some .internalNl,none,none,true,true,0⟩],[⟨0,0,true,none,none,none,true,false,0⟩,⟨0,0,true,some .internalNl,none,none,true,true,0⟩],[⟨0,0,true,none,none,none,true,false,0⟩,⟨0,0,true,some .internalNl,none,none,true,true,0⟩],[⟨0,0,true,none,none,none,true,false,0⟩,⟨0,0,true,some .internalNl,none,none,true,true,0⟩],[⟨0,0,true,none,none,none,true,false,0⟩,⟨0,0,true,some .internalNl,none,none,true,true,0⟩],[⟨0,0,true,none,none,none,true,false,0⟩,⟨0,0,true,some .internalNl,none,none,true,true,0⟩],[⟨0,0,true,none,none,none,true,false,0⟩,⟨0,0,true,some .internalNl,none,none,true,true,0⟩],[],[⟨0,0,true,none,none,none,true,false,0⟩,⟨0,0,true,some .internalNl,none,none,true,true,0⟩],[⟨0,0,true,none,none,none,true,false,0⟩,⟨0,0,true,some .internalNl,none,none,true,true,0⟩],[⟨0,0,false,none,none,none,false,false,0⟩],[⟨0,0,true,none,none,none,true,false,0⟩,⟨0,0,true,some .internalNl,none,none,true,true,0⟩],[⟨0,0,true,none,none,none,true,false,0⟩,⟨0,0,true,some .internalNl,none,none,true,true,0⟩],[⟨0,0,true,none,none,none,true,false,0⟩,⟨0,0,true,some .internalNl,none,none,true,true,0⟩],[⟨0,0,true,none,none,none,true,false,0⟩,⟨0,0,true,some .internalNl,none,none,true,true,0⟩],[⟨0,0,true,none,none,none,true,false,0⟩,⟨0,0,true,some .internalNl,none,none,true,true,0⟩],[⟨0,0,true,none,none,none,true,false,0⟩,⟨0,0,true,some .internalNl,none,none,true,true,0⟩],[],[⟨0,0,true,none,none,none,true,false,0⟩,⟨0,0,true,some .internalNl,none,none,true,true,0⟩],[⟨0,0,true,none,none,none,true,false,0⟩,⟨0,0,true,some .internalNl,none,none,true,true,0⟩],[⟨0,0,false,none,none,none,false,false,0⟩],[⟨0,0,true,none,none,none,true,false,0⟩],[⟨0,0,false,none,none,none,false,false,0⟩],[⟨0,0,false,none,none,none,false,false,0⟩],[⟨0,0,false,none,none,none,false,false,0⟩],[⟨0,0,false,none,none,none,false,false,0⟩],[⟨0,0,false,none,none,none,false,false,0⟩],[],[⟨0,0,false,none,none,none,false,false,0⟩],[⟨0,0,false,none,none,none,false,false,0⟩],[⟨0,0,true,none,none,none,true,false,0⟩],[⟨0,0,false,none,none,none,false,false,0⟩],[⟨0,0,false,none,none,none,false,false,0⟩],[⟨0,0,false,none,none,none,false,false,0⟩],[⟨0,0,false,none,none,none,false,false,0⟩],[⟨0,0,false,none,none,none,false,false,0⟩],[],[⟨0,0,false,none,none,none,false,false,0⟩],[⟨0,0,false,none,none,none,false,false,0⟩]]
theorem clearsilverhtml_line_closed1false : closed emb40_rows clearsilverhtml_line_tab1false (EA.start clearsilverhtml_M clearsilverhtml_line 1) (EA.succ clearsilverhtml_M clearsilverhtml_line (1, false)) (EA.eofOk clearsilverhtml_M clearsilverhtml_line (1, false)) = true := by
  decide +kernel
def clearsilverhtml_line_C1false : MCert clearsilverhtml_M clearsilverhtml_line (1, false) := ⟨emb40_D, clearsilverhtml_line_tab1false, clearsilverhtml_line_closed1false, (fun h => nomatch h)⟩
def clearsilverhtml_line_tab2false : List (List EA) := [[⟨0,0,true,none,none,none,false,false,0⟩],[⟨0,0,true,none,none,none,true,false,0⟩,⟨0,0,true,some .internalNl,none,none,true,true,0⟩],[⟨0,0,true,none,none,none,false,false,0⟩,⟨0,0,true,none,none,none,true,false,0⟩,⟨0,0,true,some .internalNl,none,none,false,true,0⟩,⟨0,0,true,some .internalNl,none,none,true,true,0⟩],[⟨0,0,true,none,none,none,false,false,0⟩,⟨0,0,true,none,none,none,true,false,0⟩,⟨0,0,true,some .internalNl,none,none,false,true,0⟩,⟨0,0,true,some .internalNl,none,none,true,true,0⟩],[⟨0,0,true,none,none,none,false,false,0⟩,⟨0,0,true,none,none,none,true,false,0⟩,⟨0,0,true,some .internalNl,none,none,false,true,0⟩,⟨0,0,true,some .internalNl,none,none,true,true,0⟩],[⟨0,0,true,none,none,none,false,false,0⟩,⟨0,0,true,none,none,none,true,false,0⟩,⟨0,0,true,some .internalNl,none,none,false,true,0⟩,⟨0,0,true,some .internalNl,none,none,true,true,0⟩],[⟨0,0,true,none,none,none,false,false,0⟩,⟨0,0,true,none,none,none,true,false,0⟩,⟨0,0,true,some .internalNl,none,none,false,true,0⟩,⟨0,0,true,some .internalNl,none,none,true,true,0⟩],[⟨0,0,true,none,none,none,false,false,0⟩,⟨0,0,true,none,none,none,true,false,0⟩,⟨0,0,true,some .internalNl,none,none,false,true,0⟩,⟨0,0,true,some .internalNl,none,none,true,true,0⟩],[⟨0,0,true,none,none,none,false,false,0⟩,⟨0,0,true,none,none,none,true,false,0⟩,⟨0,0,true,some .internalNl,none,none,false,true,0⟩,⟨0,0,true,some .internalNl,none,none,true,true,0⟩],[⟨0,0,true,none,none,none,false,false,0⟩,⟨0,0,true,none,none,none,true,false,0⟩,⟨0,0,true,some .internalNl,none,none,false,true,0⟩,⟨0,0,true,some .internalNl,none,none,true,true,0⟩],[⟨0,0,true,some .internalNl,none,none,false,true,0⟩],[⟨0,0,true,none,none,none,true,false,0⟩,⟨0,0,true,some .internalNl,none,none,true,true,0⟩],[⟨0,0,true,none,none,none,false,false,0⟩,⟨0,0,true,none,none,none,true,false,0⟩,⟨0,0,true,some .internalNl,none,none,false,true,0⟩,⟨0,0,true,some .internalNl,none,none,true,true,0⟩],[⟨0,0,true,none,none,none,false,false,0⟩,⟨0,0,true,none,none,none,true,false,0⟩,⟨0,0,true,some .internalNl,none,none,false,true,0⟩,⟨0,0,true,some .internalNl,none,none,true,true,0⟩],[⟨0,0,true,none,none,none,false,false,0⟩,⟨0,0,true,none,none,none,true,false,0⟩,⟨0,0,true,some .internalNl,none,none,false,true,0⟩,⟨0,0,true,some .internalNl,none,none,true,true,0⟩],[⟨0,0,true,none,none,none,false,false,0⟩,⟨0,0,true,none,none,none,true,false,0⟩,⟨0,0,true,some .internalNl,none,none,false,true,0⟩,⟨0,0,true,some .internalNl,none,none,true,true,0⟩],[⟨0,0,true,none,none,none,false,false,0⟩,⟨0,0,true,none,none,none,true,false,0⟩,⟨0,0,true,some .internalNl,none,none,false,true,0⟩,⟨0,0,true,some .internalNl,none,none,true,true,0⟩],[],[⟨0,0,true,none,none,none,false,false,0⟩,⟨0,0,true,none,none,none,true,false,0⟩,⟨0,0,true,some .internalNl,none,none,false,true,0⟩,⟨0,0,true,some .internalNl,none,none,true,true,0⟩],[⟨0,0,true,none,none,none,true,false,0⟩,⟨0,0,true,some .internalNl,none,none,true,true,0⟩],[⟨0,0,true,none,none,none,false,false,0⟩,⟨0,0,true,none,none,none,true,false,0⟩,⟨0,0,true,some .internalNl,none,none,false,true,0⟩,⟨0,0,true,some .internalNl,none,none,true,true,0⟩],[⟨0,0,true,none,none,none,true,false,0⟩,⟨0,0,true,some .internalNl,none,none,true,true,0⟩],[⟨0,0,true,none,none,none,true,false,0⟩,⟨0,0,true,some .internalNl,none,none,true,true,0⟩],[⟨0,0,true,none,none,none,true,false,0⟩,⟨0,0,true,none,none,none,false,false,0⟩,⟨0,0,true,some .internalNl,none,none,false,true,0⟩,⟨0,0,true,some .internalNl,none,none,true,true,0⟩,⟨0,0,false,none,none,none,false,false,0⟩],[⟨0,0,true,none,none,none,true,false,0⟩,⟨0,0,true,none,none,none,false,false,0⟩,⟨0,0,true,some .internalNl,none,none,false,true,0⟩,⟨0,0,true,some .internalNl,none,none,true,true,0⟩,⟨0,0,false,none,none,none,false,false,0⟩],[⟨0,0,true,none,none,none,true,false,0⟩,⟨0,0,true,none,none,none,false,false,0⟩,⟨0,0,true,some .internalNl,none,none,false,true,0⟩,⟨0,0,true,some .internalNl,none,none,true,true,0⟩,⟨0,0,false,none,none,none,false,false,0⟩],[⟨0,0,true,none,none,none,true,false,0⟩,⟨0,0,true,none,none,none,false,false,0⟩,⟨0,0,true,some .internalNl,none,none,false,true,0⟩,⟨0,0,true,some .internalNl,none,none,true,true,0⟩,⟨0,0,false,none,none,none,false,false,0⟩],[⟨0,0,true,none,none,none,true,false,0⟩,⟨0,0,true,none,none,none,false,false,0⟩,⟨0,0,true,some .internalNl,none,none,false,true,0⟩,⟨0,0,true,some .internalNl,none,none,true,true,0⟩,⟨0,0,false,none,none,none,false,false,0⟩],[],[⟨0,0,true,none,none,none,true,false,0⟩,⟨0,0,true,none,none,none,false,false,0⟩,⟨0,0,true,some .internalNl,none,none,false,true,0⟩,⟨0,0,true,some .internalNl,none,none,true,true,0⟩,⟨0,0,false,none,none,none,false,false,0⟩],[⟨0,0,true,none,none,none,true,false,0⟩,⟨0,0,true,none,none,none,false,false,0⟩,⟨0,0,true,some .internalNl,none,none,false,true,0⟩,⟨0,0,true,some .internalNl,none,none,true,true,0⟩,⟨0,0,false,none,none,none,false,false,0⟩],[⟨0,0,true,none,none,none,false,false,0⟩,⟨0,0,true,some .internalNl,none,none,false,true,0⟩,⟨0,0,true,none,none,none,true,false,0⟩,⟨0,0,true,some .internalNl,none,none,true,true,0⟩,⟨0,0,false,none,none,none,false,false,0⟩],[⟨0,0,true,none,none,none,true,false,0⟩,⟨0,0,true,some .internalNl,none,none,true,true,0⟩],[⟨0,0,true,none,none,none,false,false,0⟩,⟨0,0,true,none,none,none,true,false,0⟩,⟨0,0,true,some .internalNl,none,none,false,true,0⟩,⟨0,0,true,some .internalNl,none,none,true,true,0⟩,⟨0,0,false,none,none,none,false,false,0⟩],[⟨0,0,true,none,none,none,false,false,0⟩,⟨0,0,true,none,none,none,true,false,0⟩,⟨0,0,true,some .internalNl,none,none,false,true,0⟩,⟨0,0,true,some .internalNl,none,none,true,true,0⟩,⟨0,0,false,none,none,none,false,false,0⟩],[⟨0,0,true,none,none,none,false,false,0⟩,⟨0,0,true,none,none,none,true,false,0⟩,⟨0,0,true,some .internalNl,none,none,false,true,0⟩,⟨0,0,true,some .internalNl,none,none,true,true,0⟩,⟨0,0,false,none,none,none,false,false,0⟩],[⟨0,0,true,none,none,none,false,false,0⟩,⟨0,0,true,none,none,none,true,false,0⟩,⟨0,0,true,some .internalNl,none,none,false,true,0⟩,⟨0,0,true,some .internalNl,none,none,true,true,0⟩,⟨0,0,false,none,none,none,false,false,0⟩],[⟨0,0,true,none,none,none,false,false,0⟩,⟨0,0,true,none,none,none,true,false,0⟩,⟨0,0,true,some .internalNl,none,none,false,true,0⟩,⟨0,0,true,some .internalNl,none,none,true,true,0⟩,⟨0,0,false,none,none,none,false,false,0⟩],[],[⟨0,0,true,none,none,none,false,false,0⟩,⟨0,0,true,none,none,none,true,false,0⟩,⟨0,0,true,some .internalNl,none,none,false,true,0⟩,⟨0,0,true,some .internalNl,none,none,true,true,0⟩,⟨0,0,false,none,none,none,false,false,0⟩],[⟨0,0,true,none,none,none,true,false,0⟩,⟨0,0,true,some .internalNl,none,none,true,true,0⟩],[⟨0,0,true,none,none,none,false,false,0⟩,⟨0,0,true,none,none,none,true,false,0⟩,⟨0,0,true,some .internalNl,none,none,false,true,0⟩,⟨0,0,true,some .internalNl,none,none,true,true,0⟩,⟨0,0,false,none,none,none,false,false,0⟩],[⟨0,0,true,none,none,none,true,false,0⟩,⟨0,0,true,some .internalNl,none,none,true,true,0⟩],[⟨0,0,true,none,none,none,true,false,0⟩,⟨0,0,true,some .internalNl,none,none,true,true,0⟩],[⟨0,0,true,none,none,none,true,false,0⟩,⟨0,0,true,some .internalNl,none,none,true,true,0⟩],[⟨0,0,true,none,none,none,true,false,0⟩,⟨0,0,true,some .internalNl,none,none,true,true,0⟩],[⟨0,0,true,none,none,none,true,false,0⟩,⟨0,0,true,some .internalNl,none,none,true,true,0⟩],[⟨0,0,true,none,none,none,true,false,0⟩,⟨0,0,true,some .internalNl,none,none,true,true,0⟩],[],[⟨0,0,true,none,none,none,true,false,0⟩,⟨0,0,true,some .internalNl,none,none,true,true,0⟩],[⟨0,0,true,none,none,none,true,false,0⟩,⟨0,0,true,some .internalNl,none,none,true,true,0⟩],[⟨0,0,true,none,none,none,true,false,0⟩,⟨0,0,true,some .internalNl,none,none,true,true,0⟩],[⟨0,0,true,none,none,none,true,false,0⟩,⟨0,0,true,some .internalNl,none,none,true,true,0⟩],[⟨0,0,true,none,none,none,true,false,0⟩,⟨0,0,true,some .internalNl,none,none,true,true,0⟩],[],[⟨0,0,true,none,none,none,true,false,0⟩,⟨0,0,true,some .internalNl,none,none,true,true,0⟩],[⟨0,0,true,none,none,none,true,false,0⟩,⟨0,0,true,some .internalNl,none,none,true,true,0⟩],[⟨0,0,true,none,none,none,true,false,0⟩,⟨0,0,true,some .internalNl,none,none,true,true,0⟩],[⟨0,0,true,none,none,none,true,false,0⟩,⟨0,0,true,some .internalNl,none,none,true,true,0⟩],[⟨0,0,true,none,none,none,true,false,0⟩,⟨0,0,true,some .internalNl,none,none,true,true,0⟩],[⟨0,0,true,none,none,none,true,false,0⟩,⟨0,0,true,some .internalNl,none,none,true,true,0⟩],[⟨0,0,true,none,none,none,true,false,0⟩,⟨0,0,true,some .internalNl,none,none,true,true,0⟩],[⟨0,0,true,none,none,none,true,false,0⟩,⟨0,0,true,some .internalNl,none,none,true,true,0⟩],[],[⟨0,0,true,none,none,none,true,false,0⟩,⟨0,0,true,some .internalNl,none,none,true,true,0⟩],[⟨0,0,true,none,none,none,true,false,0⟩,⟨0,0,true,some .internalNl,none,none,true,true,0⟩],[⟨0,0,true,none,none,none,true,false,0⟩,⟨0,0,true,some .internalNl,none,none,true,true,0⟩],[⟨0,0,true,none,none,none,true,false,0⟩,⟨0,0,true,some .internalNl,none,none,true,true,0⟩],[⟨0,0,true,none,none,none,true,false,0⟩,⟨0,0,true,some .internalNl,none,none,true,true,0⟩],[⟨0,0,true,none,none,none,true,false,0⟩,⟨0,0,true,some .internalNl,none,none,true,true,0⟩],[⟨0,0,true,none,none,none,true,false,0⟩,⟨0,0,true,some .internalNl,none,none,true,true,0⟩],[⟨0,0,true,none,none,none,true,false,0⟩,⟨0,0,true,some .internalNl,none,none,true,true,0⟩],[⟨0,0,true,none,none,none,true,false,0⟩,⟨0,0,true,some .internalNl,none,none,true,true,0⟩],[],[⟨0,0,true,none,none,none,true,false,0⟩,⟨0,0,true,some .internalNl,none,none,true,true,0⟩],[⟨0,0,true,none,none,none,true,false,0⟩,⟨0,0,true,some .internalNl,none,none,true,true,0⟩],[⟨0,0,false,none,none,none,false,false,0⟩],[⟨0,0,true,none,none,none,true,false,0⟩,⟨0,0,true,some .internalNl,none,none,true,true,0⟩],[⟨0,0,true,none,none,none,true,false,0⟩,⟨0,0,true,some .internalNl,none,none,true,true,0⟩],[⟨0,0,true,none,none,none,true,false,0⟩,⟨0,0,true,some .internalNl,none,none,true,true,0⟩],[⟨0,0,true,none,none,none,true,false,0⟩,⟨0,0,true,some .internalNl,none,none,true,true,0⟩],[⟨0,0,true,none,none,none,true,false,0⟩,⟨0,0,true,some .internalNl,none,none,true,true,0⟩],[⟨0,0,true,none,none,none,true,false,0⟩,⟨0,0,true,some .internalNl,none,none,true,true,0⟩],[],[⟨0,0,true,none,none,none,true,false,0⟩,⟨0,0,true,some .internalNl,none,none,true,true,0⟩],[⟨0,0,true,none,none,none,true,false,0⟩,⟨0,0,true,some .internalNl,none,none,true,true,0⟩],[⟨0,0,false,none,none,none,false,false,0⟩],[⟨0,0,true,none,none,none,true,false,0⟩],[⟨0,0,false,none,none,none,false,false,0⟩],[⟨0,0,false,none,none,none,false,false,0⟩],[⟨0,0,false,none,none,none,false,false,0⟩],[⟨0,0,false,none,none,none,false,false,0⟩],[⟨0,0,false,none,none,none,false,false,0⟩],[],[⟨0,0,false,none,none,none,false,false,0⟩],[⟨0,0,false,none,none,none,false,false,0⟩],[⟨0,0,true,none,none,none,true,false,0⟩],[⟨0,0,false,none,none,none,false,false,0⟩],[⟨0,0,false,none,none,none,false,false,0⟩],[⟨0,0,false,none,none,none,false,false,0⟩],[⟨0,0,false,none,none,none,false,false,0⟩],[⟨0,0,false,none,none,none,false,false,0⟩],[],[⟨0,0,false,none,none,none,false,false,0⟩],[⟨0,0,false,none,none,none,false,false,0⟩]]
theorem clearsilverhtml_line_closed2false : closed emb41_rows clearsilverhtml_line_tab2false (EA.start clearsilverhtml_M clearsilverhtml_line 2) (EA.succ clearsilverhtml_M clearsilverhtml_line (2, false)) (EA.eofOk clearsilverhtml_M clearsilverhtml_line (2, false)) = true := by
  decide +kernel
def clearsilverhtml_line_C2false : MCert clearsilverhtml_M clearsilverhtml_line (2, false) := ⟨emb41_D, clearsilverhtml_line_tab2false, clearsilverhtml_line_closed2false, (fun h => nomatch h)⟩
theorem clearsilverhtml_line_certs : ∀ u ∈ clearsilverhtml_line.use, Nonempty (MCert clearsilverhtml_M clearsilverhtml_line u) :=
  (List.forall_mem_cons.mpr ⟨⟨clearsilverhtml_line_C6false⟩,
  (List.forall_mem_cons.mpr ⟨⟨clearsilverhtml_line_C3true⟩,
  (List.forall_mem_cons.mpr ⟨⟨clearsilverhtml_line_C4true⟩,
  (List.forall_mem_cons.mpr ⟨⟨clearsilverhtml_line_C5true⟩,
  (List.forall_mem_cons.mpr ⟨⟨clearsilverhtml_line_C0false⟩,
  (List.forall_mem_cons.mpr ⟨⟨clearsilverhtml_line_C1false⟩,
  (List.forall_mem_cons.mpr ⟨⟨clearsilverhtml_line_C2false⟩,
  (fun _ h => nomatch h)⟩)⟩)⟩)⟩)⟩)⟩)⟩)

def clearsilverhtml_entity : EOpt := ⟨false, false, false, [(10,false),(7,true),(8,true),(9,true)], 4⟩
def clearsilverhtml_entity_tab10false : List (List EA) := [[⟨0,0,false,none,none,none,false,false,0⟩],[⟨1,0,false,some (.own 0),some 3,none,false,true,0⟩,⟨2,0,false,some (.own 0),some 3,none,false,true,0⟩,⟨3,0,false,some (.own 0),some 3,none,false,true,0⟩],[⟨1,0,false,some (.own 1),some 5,none,false,true,0⟩],[⟨2,0,false,some (.own 1),some 5,none,false,true,0⟩],[⟨2,0,false,some (.own 1),some 5,none,false,true,0⟩],[⟨2,0,false,some (.own 1),some 5,none,false,true,0⟩],[⟨3,0,false,some (.own 1),some 5,none,false,true,0⟩],[⟨3,0,false,some (.own 1),some 5,none,false,true,0⟩],[⟨3,0,false,some (.own 1),some 5,none,false,true,0⟩],[⟨3,0,false,some (.own 1),some 5,none,false,true,0⟩],[⟨3,0,false,some (.own 1),some 5,none,false,true,0⟩],[⟨3,0,false,some (.own 1),some 5,none,false,true,0⟩],[⟨3,0,false,some (.own 1),some 5,none,false,true,0⟩],[⟨3,0,false,some (.own 1),some 5,none,false,true,0⟩],[⟨3,0,false,some (.own 1),some 5,none,false,true,0⟩],[⟨3,0,false,some (.own 1),some 5,none,false,true,0⟩],[⟨3,0,false,some (.own 1),some 5,none,false,true,0⟩],[⟨3,0,false,some (.own 1),some 5,none,false,true,0⟩],[⟨3,0,false,some (.own 1),some 5,none,false,true,0⟩],[⟨3,0,false,some (.own 1),some 5,none,false,true,0⟩],[⟨3,0,false,some (.own 1),some 5,none,false,true,0⟩],[⟨3,0,false,some (.own 1),some 5,none,false,true,0⟩],[⟨3,0,false,some (.own 1),some 5,none,false,true,0⟩],[⟨3,0,false,some (.own 1),some 5,none,false,true,0⟩],[⟨3,0,false,some (.own 1),some 5,none,false,true,0⟩],[⟨3,0,false,some (.own 1),some 5,none,false,true,0⟩],[⟨3,0,false,some (.own 1),some 5,none,false,true,0⟩],[⟨3,0,false,some (.own 1),some 5,none,false,true,0⟩],[⟨3,0,false,some (.own 1),some 5,none,false,true,0⟩],[⟨3,0,false,some (.own 1),some 5,none,false,true,0⟩],[⟨3,0,false,some (.own 1),some 5,none,false,true,0⟩],[⟨3,0,false,some (.own 1),some 5,none,false,true,0⟩],[⟨3,0,false,some (.own 1),some 5,none,false,true,0⟩],[⟨3,0,false,some (.own 1),some 5,none,false,true,0⟩],[⟨3,0,false,some (.own 1),some 5,none,false,true,0⟩],[⟨3,0,false,some (.own 1),some 5,none,false,true,0⟩],[⟨3,0,false,some (.own 1),some 5,none,false,true,0⟩],[⟨3,0,false,some (.own 1),some 5,none,false,true,0⟩],[⟨3,0,false,some (.own 1),some 5,none,false,true,0⟩],[⟨3,0,false,some (.own 1),some 5,none,false,true,0⟩],[⟨3,0,false,some (.own 1),some 5,none,false,true,0⟩],[⟨3,0,false,some (.own 1),some 5,none,false,true,0⟩],[⟨3,0,false,some (.own 1),some 5,none,false,true,0⟩],[⟨3,0,false,some (.own 1),some 5,none,false,true,0⟩],[⟨3,0,false,some (.own 1),some 5,none,false,true,0⟩],[⟨3,0,false,some (.own 1),some 5,none,false,true,0⟩],[⟨3,0,false,some (.own 1),some 5,none,false,true,0⟩],[⟨3,0,false,some (.own 1),some 5,none,false,true,0⟩]]
theorem clearsilverhtml_entity_closed10false : closed emb45_rows clearsilverhtml_entity_tab10false (EA.start clearsilverhtml_M clearsilverhtml_entity 10) (EA.succ clearsilverhtml_M clearsilverhtml_entity (10, false)) (EA.eofOk clearsilverhtml_M clearsilverhtml_entity (10, false)) = true := by
  decide +kernel
def clearsilverhtml_entity_C10false : MCert clearsilverhtml_M clearsilverhtml_entity (10, false) := ⟨emb45_D, clearsilverhtml_entity_tab10false, clearsilverhtml_entity_closed10false, (fun h => nomatch h)⟩
def clearsilverhtml_entity_tab7true : List (List EA) := [[⟨0,0,false,none,none,none,false,false,0⟩],[⟨1,0,false,some (.own 0),some 1,none,false,true,0⟩,⟨2,0,false,some (.own 0),some 1,none,false,true,0⟩,⟨3,0,false,some (.own 0),some 1,none,false,true,0⟩],[⟨1,0,false,some (.own 1),some 3,none,false,true,0⟩],[⟨1,0,false,none,some 3,none,false,false,0⟩],[⟨2,0,false,some (.own 1),some 3,none,false,true,0⟩],[⟨2,0,false,none,some 3,none,false,false,0⟩],[⟨3,0,false,some (.own 1),some 3,none,false,true,0⟩],[⟨3,0,false,some (.own 1),some 3,none,false,true,0⟩],[⟨3,0,false,none,some 3,none,false,false,0⟩],[⟨3,0,false,none,some 3,none,false,false,0⟩],[⟨3,0,false,none,some 3,none,false,false,0⟩],[⟨3,0,false,none,some 3,none,false,false,0⟩],[⟨3,0,false,none,some 3,none,false,false,0⟩],[⟨3,0,false,none,some 3,none,false,false,0⟩,⟨3,0,true,some .internalNl,some 3,none,false,true,0⟩],[⟨3,0,false,some .internalNl,some 3,none,false,true,0⟩,⟨3,0,true,some .internalNl,some 3,none,false,true,0⟩],[⟨3,0,false,some .internalNl,some 3,none,false,true,0⟩,⟨3,0,true,some .internalNl,some 3,none,false,true,0⟩],[⟨3,0,false,none,some 3,none,false,false,0⟩,⟨3,0,true,some .internalNl,some 3,none,false,true,0⟩],[⟨3,0,false,some .internalNl,some 3,none,false,true,0⟩,⟨3,0,true,some .internalNl,some 3,none,false,true,0⟩],[⟨3,0,false,some .internalNl,some 3,none,false,true,0⟩,⟨3,0,true,some .internalNl,some 3,none,false,true,0⟩],[⟨3,0,true,some .internalNl,some 3,none,false,true,0⟩]]
theorem clearsilverhtml_entity_closed7true : closed emb3_rows clearsilverhtml_entity_tab7true (EA.start clearsilverhtml_M clearsilverhtml_entity 7) (EA.succ clearsilverhtml_M clearsilverhtml_entity (7, true)) (EA.eofOk clearsilverhtml_M clearsilverhtml_entity (7, true)) = true := by
  decide +kernel
def clearsilverhtml_entity_C7true : MCert clearsilverhtml_M clearsilverhtml_entity (7, true) := ⟨emb3_D, clearsilverhtml_entity_tab7true, clearsilverhtml_entity_closed7true, (fun h => nomatch h)⟩
def clearsilverhtml_entity_tab8true : List (List EA) := [[⟨0,0,false,none,none,none,false,false,0⟩],[⟨1,0,false,some (.own 0),some 1,none,false,true,0⟩,⟨2,0,false,some (.own 0),some 1,none,false,true,0⟩,⟨3,0,false,some (.own 0),some 1,none,false,true,0⟩],[⟨1,0,false,some (.own 1),some 3,none,false,true,0⟩],[⟨1,0,false,none,some 3,none,false,false,0⟩],[⟨2,0,false,some (.own 1),some 3,none,false,true,0⟩],[⟨2,0,false,some (.own 1),some 2,none,false,true,0⟩],[⟨2,0,false,none,some 3,none,false,false,0⟩],[⟨3,0,false,some (.own 1),some 3,none,false,true,0⟩],[⟨3,0,false,some (.own 1),some 3,none,false,true,0⟩],[⟨3,0,false,some (.own 1),some 2,none,false,true,0⟩],[⟨3,0,false,none,some 3,none,false,false,0⟩],[⟨3,0,false,none,some 3,none,false,false,0⟩],[⟨3,0,false,none,some 3,none,false,false,0⟩],[⟨3,0,false,none,some 3,none,false,false,0⟩],[⟨3,0,false,none,some 3,none,false,false,0⟩],[⟨3,0,false,none,some 3,none,false,false,0⟩],[⟨3,0,false,none,some 3,none,false,false,0⟩,⟨3,0,true,some .internalNl,some 3,none,false,true,0⟩],[⟨3,0,false,some .internalNl,some 3,none,false,true,0⟩,⟨3,0,true,some .internalNl,some 3,none,false,true,0⟩],[⟨3,0,false,some .internalNl,some 3,none,false,true,0⟩,⟨3,0,true,some .internalNl,some 3,none,false,true,0⟩],[⟨3,0,false,none,some 3,none,false,false,0⟩,⟨3,0,true,some .internalNl,some 3,none,false,true,0⟩],[⟨3,0,false,some .internalNl,some 3,none,false,true,0⟩,⟨3,0,true,some .internalNl,some 3,none,false,true,0⟩],[⟨3,0,false,some .internalNl,some 3,none,false,true,0⟩,⟨3,0,true,some .internalNl,some 3,none,false,true,0⟩],[⟨3,0,true,some .internalNl,some 3,none,false,true,0⟩]]
theorem clearsilverhtml_entity_closed8true : closed emb4_rows clearsilverhtml_entity_tab8true (EA.start clearsilverhtml_M clearsilverhtml_entity 8) (EA.succ clearsilverhtml_M clearsilverhtml_entity (8, true)) (EA.eofOk clearsilverhtml_M clearsilverhtml_entity (8, true)) = true := by
  decide +kernel
def clearsilverhtml_entity_C8true : MCert clearsilverhtml_M clearsilverhtml_entity (8, true) := ⟨emb4_D, clearsilverhtml_entity_tab8true, clearsilverhtml_entity_closed8true, (fun h => nomatch h)⟩
def clearsilverhtml_entity_tab9true : List (List EA) := [[⟨0,0,false,none,none,none,false,false,0⟩],[⟨1,0,false,some (.own 0),some 1,none,false,true,0⟩,⟨2,0,false,some (.own 0),some 1,none,false,true,0⟩,⟨3,0,false,some (.own 0),some 1,none,false,true,0⟩],[⟨1,0,false,some (.own 1),some 2,none,false,true,0⟩],[⟨1,0,false,none,some 3,none,false,false,0⟩],[⟨2,0,false,some (.own 1),some 2,none,false,true,0⟩,⟨3,0,false,some (.own 1),some 2,none,false,true,0⟩]]
theorem clearsilverhtml_entity_closed9true : closed emb44_rows clearsilverhtml_entity_tab9true (EA.start clearsilverhtml_M clearsilverhtml_entity 9) (EA.succ clearsilverhtml_M clearsilverhtml_entity (9, true)) (EA.eofOk clearsilverhtml_M clearsilverhtml_entity (9, true)) = true := by
  decide +kernel
def clearsilverhtml_entity_C9true : MCert clearsilverhtml_M clearsilverhtml_entity (9, true) := ⟨emb44_D, clearsilverhtml_entity_tab9true, clearsilverhtml_entity_closed9true, (fun h => nomatch h)⟩
theorem clearsilverhtml_entity_certs : ∀ u ∈ clearsilverhtml_entity.use, Nonempty (MCert clearsilverhtml_M clearsilverhtml_entity u) :=
  (List.forall_mem_cons.mpr ⟨⟨clearsilverhtml_entity_C10false⟩,
  (List.forall_mem_cons.mpr ⟨⟨clearsilverhtml_entity_C7true⟩,
  (List.forall_mem_cons.mpr ⟨⟨clearsilverhtml_entity_C8true⟩,
  (List.forall_mem_cons.mpr ⟨⟨clearsilverhtml_entity_C9true⟩,
  (fun _ h => nomatch h)⟩)⟩)⟩)⟩)

def clearsilverhtml_entityt : EOpt := ⟨true, true, false, [(10,false),(7,true),(8,true),(9,true)], 4⟩
def clearsilverhtml_entityt_tab10false : List (List EA) := [[⟨0,0,false,none,none,none,false,false,0⟩],[⟨1,0,false,some (.own 0),some 3,none,false,true,0⟩,⟨2,0,false,some (.own 0),some 3,none,false,true,0⟩,⟨3,0,false,some (.own 0),some 3,none,false,true,0⟩],[⟨1,0,false,some (.own 1),some 5,none,false,true,1⟩],[⟨2,0,false,some (.own 1),some 5,none,false,true,0⟩],[⟨2,0,false,some (.own 1),some 5,none,false,true,0⟩],[⟨2,0,false,some (.own 1),some 5,none,false,true,0⟩],[⟨3,0,false,some (.own 1),some 5,none,false,true,0⟩],[⟨3,0,false,some (.own 1),some 5,none,false,true,0⟩],[⟨3,0,false,some (.own 1),some 5,none,false,true,0⟩],[⟨3,0,false,some (.own 1),some 5,none,false,true,0⟩],[⟨3,0,false,some (.own 1),some 5,none,false,true,0⟩],[⟨3,0,false,some (.own 1),some 5,none,false,true,0⟩],[⟨3,0,false,some (.own 1),some 5,none,false,true,0⟩],[⟨3,0,false,some (.own 1),some 5,none,false,true,0⟩],[⟨3,0,false,some (.own 1),some 5,none,false,true,0⟩],[⟨3,0,false,some (.own 1),some 5,none,false,true,0⟩],[⟨3,0,false,some (.own 1),some 5,none,false,true,0⟩],[⟨3,0,false,some (.own 1),some 5,none,false,true,0⟩],[⟨3,0,false,some (.own 1),some 5,none,false,true,0⟩],[⟨3,0,false,some (.own 1),some 5,none,false,true,0⟩],[⟨3,0,false,some (.own 1),some 5,none,false,true,0⟩],[⟨3,0,false,some (.own 1),some 5,none,false,true,0⟩],[⟨3,0,false,some (.own 1),some 5,none,false,true,0⟩],[⟨3,0,false,some (.own 1),some 5,none,false,true,0⟩],[⟨3,0,false,some (.own 1),some 5,none,false,true,0⟩],[⟨3,0,false,some (.own 1),some 5,none,false,true,0⟩],[⟨3,0,false,some (.own 1),some 5,none,false,true,0⟩],[⟨3,0,false,some (.own 1),some 5,none,false,true,0⟩],[⟨3,0,false,some (.own 1),some 5,none,false,true,0⟩],[⟨3,0,false,some (.own 1),some 5,none,false,true,0⟩],[⟨3,0,false,some (.own 1),some 5,none,false,true,0⟩],[⟨3,0,false,some (.own 1),some 5,none,false,true,0⟩],[⟨3,0,false,some (.own 1),some 5,none,false,true,0⟩],[⟨3,0,false,some (.own 1),some 5,none,false,true,0⟩],[⟨3,0,false,some (.own 1),some 5,none,false,true,0⟩],[⟨3,0,false,some (.own 1),some 5,none,false,true,0⟩],[⟨3,0,false,some (.own 1),some 5,none,false,true,0⟩],[⟨3,0,false,some (.own 1),some 5,none,false,true,0⟩],[⟨3,0,false,some (.own 1),some 5,none,false,true,0⟩],[⟨3,0,false,some (.own 1),some 5,none,false,true,0⟩],[⟨3,0,false,some (.own 1),some 5,none,false,true,0⟩],[⟨3,0,false,some (.own 1),some 5,none,false,true,0⟩],[⟨3,0,false,some (.own 1),some 5,none,false,true,0⟩],[⟨3,0,false,some (.own 1),some 5,none,false,true,0⟩],[⟨3,0,false,some (.own 1),some 5,none,false,true,0⟩],[⟨3,0,false,some (.own 1),some 5,none,false,true,0⟩],[⟨3,0,false,some (.own 1),some 5,none,false,true,0⟩],[⟨3,0,false,some (.own 1),some 5,none,false,true,0⟩]]
theorem clearsilverhtml_entityt_closed10false : closed emb45_rowst clearsilverhtml_entityt_tab10false (EA.start clearsilverhtml_M clearsilverhtml_entityt 10) (EA.succ clearsilverhtml_M clearsilverhtml_entityt (10, false)) (EA.eofOk clearsilverhtml_M clearsilverhtml_entityt (10, false)) = true := by
  decide +kernel
def clearsilverhtml_entityt_C10false : MCert clearsilverhtml_M clearsilverhtml_entityt (10, false) := ⟨emb45_Dt, clearsilverhtml_entityt_tab10false, clearsilverhtml_entityt_closed10false, (fun _ => ⟨by decide +kernel, by decide +kernel, by decide +kernel⟩)⟩
def clearsilverhtml_entityt_tab7true : List (List EA) := [[⟨0,0,false,none,none,none,false,false,0⟩],[⟨1,0,false,some (.own 0),some 1,none,false,true,0⟩,⟨2,0,false,some (.own 0),some 1,none,false,true,0⟩,⟨3,0,false,some (.own 0),some 1,none,false,true,0⟩],[⟨1,0,false,some (.own 1),some 3,none,false,true,0⟩],[⟨1,0,false,none,some 3,none,false,false,1⟩],[⟨2,0,false,some (.own 1),some 3,none,false,true,0⟩],[⟨2,0,false,none,some 3,none,false,false,2⟩],[⟨3,0,false,some (.own 1),some 3,none,false,true,0⟩],[⟨3,0,false,some (.own 1),some 3,none,false,true,0⟩],[⟨3,0,false,none,some 3,none,false,false,2⟩],[⟨3,0,false,none,some 3,none,false,false,2⟩],[⟨3,0,false,none,some 3,none,false,false,2⟩],[⟨3,0,false,none,some 3,none,false,false,2⟩],[⟨3,0,false,none,some 3,none,false,false,2⟩],[⟨3,0,false,none,some 3,none,false,false,2⟩],[],[],[],[],[],[]]
theorem clearsilverhtml_entityt_closed7true : closed emb3_rowst clearsilverhtml_entityt_tab7true (EA.start clearsilverhtml_M clearsilverhtml_entityt 7) (EA.succ clearsilverhtml_M clearsilverhtml_entityt (7, true)) (EA.eofOk clearsilverhtml_M clearsilverhtml_entityt (7, true)) = true := by
  decide +kernel
def clearsilverhtml_entityt_C7true : MCert clearsilverhtml_M clearsilverhtml_entityt (7, true) := ⟨emb3_Dt, clearsilverhtml_entityt_tab7true, clearsilverhtml_entityt_closed7true, (fun _ => ⟨by decide +kernel, by decide +kernel, by decide +kernel⟩)⟩
def clearsilverhtml_entityt_tab8true : List (List EA) := [[⟨0,0,false,none,none,none,false,false,0⟩],[⟨1,0,false,some (.own 0),some 1,none,false,true,0⟩,⟨2,0,false,some (.own 0),some 1,none,false,true,0⟩,⟨3,0,false,some (.own 0),some 1,none,false,true,0⟩],[⟨1,0,false,some (.own 1),some 3,none,false,true,0⟩],[⟨1,0,false,none,some 3,none,false,false,1⟩],[⟨2,0,false,some (.own 1),some 3,none,false,true,0⟩],[⟨2,0,false,some (.own 1),some 2,none,false,true,0⟩],[⟨2,0,false,none,some 3,none,false,false,2⟩],[⟨3,0,false,some (.own 1),some 3,none,false,true,0⟩],[⟨3,0,false,some (.own 1),some 3,none,false,true,0⟩],[⟨3,0,false,some (.own 1),some 2,none,false,true,0⟩],[⟨3,0,false,none,some 3,none,false,false,2⟩],[⟨3,0,false,none,some 3,none,false,false,2⟩],[⟨3,0,false,none,some 3,none,false,false,2⟩],[⟨3,0,false,none,some 3,none,false,false,2⟩],[⟨3,0,false,none,some 3,none,false,false,2⟩],[⟨3,0,false,none,some 3,none,false,false,2⟩],[⟨3,0,false,none,some 3,none,false,false,2⟩],[],[],[],[],[],[]]
theorem clearsilverhtml_entityt_closed8true : closed emb4_rowst clearsilverhtml_entityt_tab8true (EA.start clearsilverhtml_M clearsilverhtml_entityt 8) (EA.succ clearsilverhtml_M clearsilverhtml_entityt (8, true)) (EA.eofOk clearsilverhtml_M clearsilverhtml_entityt (8, true)) = true := by
  decide +kernel
def clearsilverhtml_entityt_C8true : MCert clearsilverhtml_M clearsilverhtml_entityt (8, true) := ⟨emb4_Dt, clearsilverhtml_entityt_tab8true, clearsilverhtml_entityt_closed8true, (fun _ => ⟨by decide +kernel, by decide +kernel, by decide +kernel⟩)⟩
def clearsilverhtml_entityt_tab9true : List (List EA) := [[⟨0,0,false,none,none,none,false,false,0⟩],[⟨1,0,false,some (.own 0),some 1,none,false,true,0⟩,⟨2,0,false,some (.own 0),some 1,none,false,true,0⟩,⟨3,0,false,some (.own 0),some 1,none,false,true,0⟩],[⟨1,0,false,some (.own 1),some 2,none,false,true,0⟩],[⟨1,0,false,none,some 3,none,false,false,0⟩],[⟨2,0,false,some (.own 1),some 2,none,false,true,0⟩,⟨3,0,false,some (.own 1),some 2,none,false,true,0⟩]]
theorem clearsilverhtml_entityt_closed9true : closed emb44_rowst clearsilverhtml_entityt_tab9true (EA.start clearsilverhtml_M clearsilverhtml_entityt 9) (EA.succ clearsilverhtml_M clearsilverhtml_entityt (9, true)) (EA.eofOk clearsilverhtml_M clearsilverhtml_entityt (9, true)) = true := by
  decide +kernel
def clearsilverhtml_entityt_C9true : MCert clearsilverhtml_M clearsilverhtml_entityt (9, true) := ⟨emb44_Dt, clearsilverhtml_entityt_tab9true, clearsilverhtml_entityt_closed9true, (fun _ => ⟨by decide +kernel, by decide +kernel, by decide +kernel⟩)⟩
theorem clearsilverhtml_entityt_certs : ∀ u ∈ clearsilverhtml_entityt.use, Nonempty (MCert clearsilverhtml_M clearsilverhtml_entityt u) :=
  (List.forall_mem_cons.mpr ⟨⟨clearsilverhtml_entityt_C10false⟩,
  (List.forall_mem_cons.mpr ⟨⟨clearsilverhtml_entityt_C7true⟩,
  (List.forall_mem_cons.mpr ⟨⟨clearsilverhtml_entityt_C8true⟩,
  (List.forall_mem_cons.mpr ⟨⟨clearsilverhtml_entityt_C9true⟩,
  (fun _ h => nomatch h)⟩)⟩)⟩)⟩)

theorem coffeescript_m0 : Emb.Coffeescript.coffeescript_js_line.mach = ⟨emb18_nfa, [.none,.cb 1,.none,.none,.cb 1,.cb 1], true⟩ := by decide +kernel
theorem coffeescript_m1 : Emb.Coffeescript.coffeescript_line.mach = ⟨emb19_nfa, [.call 0,.cb 0,.none,.none,.cb 0,.cb 0], true⟩ := by decide +kernel
theorem coffeescript_m2 : Emb.Coffeescript.coffeescript_entity.mach = ⟨emb20_nfa, [.ecb 0,.ecb 0,.none], true⟩ := by decide +kernel

/-- The machines of `Emb.Coffeescript.parser`, with their automata as literals. -/
def coffeescript_M : Multi := ⟨Emb.Coffeescript.parser.sws, [
  ⟨emb18_nfa, [.none,.cb 1,.none,.none,.cb 1,.cb 1], true⟩,
  ⟨emb19_nfa, [.call 0,.cb 0,.none,.none,.cb 0,.cb 0], true⟩,
  ⟨emb20_nfa, [.ecb 0,.ecb 0,.none], true⟩]⟩
theorem coffeescript_M_eq : Emb.Coffeescript.parser.multi = coffeescript_M := by
  show Multi.mk _ [Emb.Coffeescript.coffeescript_js_line.mach, Emb.Coffeescript.coffeescript_line.mach, Emb.Coffeescript.coffeescript_entity.mach] = _
  rw [coffeescript_m0, coffeescript_m1, coffeescript_m2]; rfl

def coffeescript_line : EOpt := ⟨true, false, true, [(1,false),(0,true)], 2⟩
def coffeescript_line_tab1false : List (List EA) := [[⟨0,0,false,none,none,none,false,true,0⟩],[⟨1,0,false,some (.own 0),some 1,none,false,true,0⟩,⟨2,0,false,some (.own 0),some 1,none,false,true,0⟩,⟨3,0,false,some (.own 0),some 1,none,false,true,0⟩],[⟨1,0,false,some .newline,none,none,false,false,0⟩],[⟨1,0,false,some .newline,some 4,none,false,false,0⟩],[⟨1,0,true,some (.own 3),some 5,none,true,true,0⟩],[⟨1,0,true,some (.own 3),some 2,none,false,true,0⟩],[⟨1,0,true,some (.own 3),some 5,none,true,true,0⟩],[⟨2,0,true,some (.own 3),some 5,none,true,true,0⟩,⟨3,0,true,some (.own 3),some 5,none,true,true,0⟩,⟨3,0,true,some .internalNl,some 5,none,true,true,0⟩],[⟨2,0,true,some (.own 3),some 5,none,true,true,0⟩,⟨3,0,true,some (.own 3),some 5,none,true,true,0⟩,⟨3,0,true,some .internalNl,some 5,none,false,true,0⟩,⟨3,0,true,some .internalNl,some 5,none,true,true,0⟩],[⟨2,0,true,some (.own 3),some 5,none,true,true,0⟩,⟨3,0,true,some (.own 3),some 5,none,true,true,0⟩,⟨3,0,true,some .internalNl,some 5,none,false,true,0⟩,⟨3,0,true,some .internalNl,some 5,none,true,true,0⟩],[⟨2,0,true,some (.own 3),some 5,none,true,true,0⟩,⟨3,0,true,some (.own 3),some 5,none,true,true,0⟩,⟨3,0,true,some .internalNl,some 5,none,false,true,0⟩,⟨3,0,true,some .internalNl,some 5,none,true,true,0⟩],[⟨2,0,true,some (.own 3),some 5,none,true,true,0⟩,⟨3,0,true,some (.own 3),some 5,none,true,true,0⟩,⟨3,0,true,some .internalNl,some 5,none,false,true,0⟩,⟨3,0,true,some .internalNl,some 5,none,true,true,0⟩],[⟨2,0,true,some (.own 3),some 5,none,true,true,0⟩,⟨3,0,true,some (.own 3),some 5,none,true,true,0⟩,⟨3,0,true,some .internalNl,some 5,none,false,true,0⟩,⟨3,0,true,some .internalNl,some 5,none,true,true,0⟩],[⟨2,0,true,some (.own 3),some 3,none,true,true,0⟩],[⟨2,0,true,some (.own 3),some 5,none,true,true,0⟩,⟨3,0,true,some (.own 3),some 5,none,true,true,0⟩,⟨3,0,true,some .internalNl,some 5,none,false,true,0⟩,⟨3,0,true,some .internalNl,some 5,none,true,true,0⟩],[⟨2,0,true,some (.own 3),some 2,none,false,true,0⟩,⟨3,0,true,some (.own 3),some 2,none,false,true,0⟩],[⟨2,0,true,some (.own 3),some 2,none,false,true,0⟩],[⟨2,0,true,some (.own 3),some 5,none,true,true,0⟩,⟨3,0,true,some (.own 3),some 5,none,true,true,0⟩,⟨3,0,true,some .internalNl,some 5,none,true,true,0⟩],[⟨2,0,true,some (.own 3),some 5,none,true,true,0⟩,⟨3,0,true,some (.own 3),some 5,none,true,true,0⟩,⟨3,0,true,some .internalNl,some 5,none,false,true,0⟩,⟨3,0,true,some .internalNl,some 5,none,true,true,0⟩],[⟨2,0,true,some (.own 3),some 5,none,true,true,0⟩,⟨3,0,true,some (.own 3),some 5,none,true,true,0⟩,⟨3,0,true,some .internalNl,some 5,none,false,true,0⟩,⟨3,0,true,some .internalNl,some 5,none,true,true,0⟩],[⟨2,0,true,some (.own 3),some 5,none,true,true,0⟩,⟨3,0,true,some (.own 3),some 5,none,true,true,0⟩,⟨3,0,true,some .internalNl,some 5,none,false,true,0⟩,⟨3,0,true,some .internalNl,some 5,none,true,true,0⟩],[⟨2,0,true,some (.own 3),some 5,none,true,true,0⟩,⟨3,0,true,some (.own 3),some 5,none,true,true,0⟩,⟨3,0,true,some .internalNl,some 5,none,false,true,0⟩,⟨3,0,true,some .internalNl,some 5,none,true,true,0⟩],[⟨2,0,true,some (.own 3),some 5,none,true,true,0⟩,⟨3,0,true,some (.own 3),some 5,none,true,true,0⟩,⟨3,0,true,some .internalNl,some 5,none,false,true,0⟩,⟨3,0,true,some .internalNl,some 5,none,true,true,0⟩],[⟨2,0,true,some (.own 3),some 3,none,true,true,0⟩],[⟨2,0,true,some (.own 3),some 5,none,true,true,0⟩,⟨3,0,true,some (.own 3),some 5,none,true,true,0⟩,⟨3,0,true,some .internalNl,some 5,none,false,true,0⟩,⟨3,0,true,some .internalNl,some 5,none,true,true,0⟩],[⟨3,0,true,some (.own 3),some 5,none,true,true,0⟩,⟨3,0,true,some .internalNl,some 5,none,false,true,0⟩,⟨3,0,true,some .internalNl,some 5,none,true,true,0⟩],[⟨3,0,true,some .internalNl,some 5,none,false,true,0⟩],[⟨3,0,true,some (.own 3),some 3,none,true,true,0⟩],[⟨3,0,true,some (.own 3),some 5,none,true,true,0⟩,⟨3,0,true,some .internalNl,some 5,none,true,true,0⟩],[⟨3,0,true,some (.own 3),some 2,none,false,true,0⟩],[⟨3,0,true,some (.own 3),some 5,none,true,true,0⟩,⟨3,0,true,some .internalNl,some 5,none,false,true,0⟩,⟨3,0,true,some .internalNl,some 5,none,true,true,0⟩],[⟨3,0,true,some .internalNl,some 5,none,false,true,0⟩],[⟨3,0,true,some (.own 3),some 3,none,true,true,0⟩],[⟨3,0,true,some (.own 3),some 5,none,true,true,0⟩,⟨3,0,true,some .internalNl,some 5,none,true,true,0⟩],[⟨3,0,true,some (.own 3),some 3,none,true,true,0⟩,⟨3,0,true,some .internalNl,some 3,none,true,true,0⟩],[⟨3,0,true,some (.own 3),some 3,none,true,true,0⟩,⟨3,0,true,some .internalNl,some 3,none,false,true,0⟩,⟨3,0,true,some .internalNl,some 3,none,true,true,0⟩],[⟨3,0,true,some (.own 3),some 3,none,true,true,0⟩,⟨3,0,true,some .internalNl,some 3,none,false,true,0⟩,⟨3,0,true,some .internalNl,some 3,none,true,true,0⟩],[⟨3,0,true,some (.own 3),some 3,none,true,true,0⟩,⟨3,0,true,some .internalNl,some 3,none,false,true,0⟩,⟨3,0,true,some .internalNl,some 3,none,true,true,0⟩],[⟨3,0,true,some (.own 3),some 3,none,true,true,0⟩,⟨3,0,true,some .internalNl,some 3,none,false,true,0⟩,⟨3,0,true,some .internalNl,some 3,none,true,true,0⟩],[⟨3,0,true,some (.own 3),some 3,none,true,true,0⟩,⟨3,0,true,some .internalNl,some 3,none,false,true,0⟩,⟨3,0,true,some .internalNl,some 3,none,true,true,0⟩],[⟨3,0,true,some (.own 3),some 3,none,true,true,0⟩,⟨3,0,true,some .internalNl,some 3,none,true,true,0⟩],[⟨3,0,true,some (.own 3),some 2,none,false,true,0⟩],[⟨3,0,true,some (.own 3),some 2,none,false,true,0⟩],[⟨3,0,true,some (.own 3),some 2,none,false,true,0⟩,⟨3,0,true,some .internalNl,some 2,none,false,true,0⟩],[⟨3,0,true,some (.own 3),some 2,none,false,true,0⟩,⟨3,0,true,some .internalNl,some 2,none,false,true,0⟩],[⟨3,0,true,some (.own 3),some 2,none,false,true,0⟩,⟨3,0,true,some .internalNl,some 2,none,false,true,0⟩],[⟨3,0,true,some (.own 3),some 2,none,false,true,0⟩,⟨3,0,true,some .internalNl,some 2,none,false,true,0⟩],[⟨3,0,true,some (.own 3),some 2,none,false,true,0⟩],[⟨3,0,true,some (.own 3),some 3,none,true,true,0⟩,⟨3,0,true,some .internalNl,some 3,none,true,true,0⟩],[⟨3,0,true,some (.own 3),some 3,none,true,true,0⟩,⟨3,0,true,some .internalNl,some 3,none,false,true,0⟩,⟨3,0,true,some .internalNl,some 3,none,true,true,0⟩],[⟨3,0,true,some (.own 3),some 3,none,true,true,0⟩,⟨3,0,true,some .internalNl,some 3,none,false,true,0⟩,⟨3,0,true,some .internalNl,some 3,none,true,true,0⟩],[⟨3,0,true,some (.own 3),some 3,none,true,true,0⟩,⟨3,0,true,some .internalNl,some 3,none,false,true,0⟩,⟨3,0,true,some .internalNl,some 3,none,true,true,0⟩],[⟨3,0,true,some (.own 3),some 3,none,true,true,0⟩,⟨3,0,true,some .internalNl,some 3,none,false,true,0⟩,⟨3,0,true,some .internalNl,some 3,none,true,true,0⟩],[⟨3,0,true,some (.own 3),some 3,none,true,true,0⟩,⟨3,0,true,some .internalNl,some 3,none,false,true,0⟩,⟨3,0,true,some .internalNl,some 3,none,true,true,0⟩],[⟨3,0,true,some (.own 3),some 3,none,true,true,0⟩,⟨3,0,true,some .internalNl,some 3,none,true,true,0⟩],[⟨3,0,true,some (.own 3),some 3,none,true,true,0⟩,⟨3,0,true,some .internalNl,some 3,none,false,true,0⟩,⟨3,0,true,some .internalNl,some 3,none,true,true,0⟩],[⟨3,0,true,some .internalNl,some 3,none,false,true,0⟩],[⟨3,0,true,some (.own 3),some 3,none,true,true,0⟩,⟨3,0,true,some .internalNl,some 3,none,true,true,0⟩],[⟨3,0,true,some .internalNl,some 2,none,false,true,0⟩],[⟨3,0,true,some .internalNl,some 2,none,false,true,0⟩],[⟨3,0,true,some .internalNl,some 2,none,false,true,0⟩],[⟨3,0,true,some (.own 3),some 2,none,false,true,0⟩,⟨3,0,true,some .internalNl,some 2,none,false,true,0⟩],[⟨3,0,true,some .internalNl,some 2,none,false,true,0⟩],[⟨3,0,true,some (.own 3),some 2,none,false,true,0⟩],[⟨3,0,true,some (.own 3),some 3,none,true,true,0⟩,⟨3,0,true,some .internalNl,some 3,none,false,true,0⟩,⟨3,0,true,some .internalNl,some 3,none,true,true,0⟩],[⟨3,0,true,some .internalNl,some 3,none,false,true,0⟩],[⟨3,0,true,some (.own 3),some 3,none,true,true,0⟩,⟨3,0,true,some .internalNl,some 3,none,true,true,0⟩],[⟨3,0,true,some (.own 3),some 3,none,true,true,0⟩,⟨3,0,true,some .internalNl,some 3,none,true,true,0⟩],[⟨3,0,true,some .internalNl,some 2,none,false,true,0⟩],[⟨3,0,true,some (.own 3),some 2,none,false,true,0⟩],[⟨3,0,true,some (.own 3),some 3,none,true,true,0⟩,⟨3,0,true,some .internalNl,some 3,none,true,true,0⟩],[⟨3,0,true,some .internalNl,some 2,none,false,true,0⟩],[⟨3,0,true,some (.own 3),some 2,none,false,true,0⟩]]
theorem coffeescript_line_closed1false : closed emb19_rows coffeescript_line_tab1false (EA.start coffeescript_M coffeescript_line 1) (EA.succ coffeescript_M coffeescript_line (1, false)) (EA.eofOk coffeescript_M coffeescript_line (1, false)) = true := by
  decide +kernel
def coffeescript_line_C1false : MCert coffeescript_M coffeescript_line (1, false) := ⟨emb19_D, coffeescript_line_tab1false, coffeescript_line_closed1false, (fun h => nomatch h)⟩
def coffeescript_line_tab0true : List (List EA) := [[⟨0,0,false,none,none,none,false,true,0⟩],[⟨1,0,false,some (.own 0),some 1,none,false,true,0⟩,⟨2,0,false,some (.own 0),some 1,none,false,true,0⟩,⟨3,0,false,some (.own 0),some 1,none,false,true,0⟩],[⟨1,0,false,some .newline,none,none,false,false,0⟩],[⟨1,0,false,some .newline,some 4,none,false,false,0⟩],[⟨1,0,true,some (.own 7),some 5,none,true,true,0⟩],[⟨1,0,true,some (.own 7),some 5,none,true,true,0⟩],[⟨1,0,false,some (.own 7),some 5,none,false,true,0⟩],[⟨2,0,true,some (.own 7),some 5,none,true,true,0⟩,⟨3,0,true,some (.own 7),some 5,none,true,true,0⟩,⟨3,0,true,some .internalNl,some 5,none,true,true,0⟩],[⟨2,0,true,some (.own 7),some 5,none,true,true,0⟩,⟨3,0,true,some (.own 7),some 5,none,true,true,0⟩,⟨3,0,true,some .internalNl,some 5,none,false,true,0⟩,⟨3,0,true,some .internalNl,some 5,none,true,true,0⟩],[⟨2,0,true,some (.own 7),some 5,none,true,true,0⟩,⟨3,0,true,some (.own 7),some 5,none,true,true,0⟩,⟨3,0,true,some .internalNl,some 5,none,false,true,0⟩,⟨3,0,true,some .internalNl,some 5,none,true,true,0⟩],[⟨2,0,true,some (.own 7),some 5,none,true,true,0⟩,⟨3,0,true,some (.own 7),some 5,none,true,true,0⟩,⟨3,0,true,some .internalNl,some 5,none,true,true,0⟩],[⟨2,0,true,some (.own 7),some 5,none,true,true,0⟩,⟨3,0,true,some (.own 7),some 5,none,true,true,0⟩,⟨3,0,true,some .internalNl,some 5,none,false,true,0⟩,⟨3,0,true,some .internalNl,some 5,none,true,true,0⟩],[⟨2,0,true,some (.own 7),some 5,none,true,true,0⟩,⟨3,0,true,some (.own 7),some 5,none,true,true,0⟩,⟨3,0,true,some .internalNl,some 5,none,false,true,0⟩,⟨3,0,true,some .internalNl,some 5,none,true,true,0⟩],[⟨2,0,false,some (.own 7),some 5,none,false,true,0⟩],[⟨2,0,true,some (.own 7),some 5,none,false,true,0⟩],[⟨2,0,true,some (.own 7),some 2,none,false,true,0⟩],[⟨3,0,true,some (.own 7),some 5,none,true,true,0⟩,⟨3,0,true,some .internalNl,some 5,none,true,true,0⟩],[⟨3,0,true,some (.own 7),some 5,none,true,true,0⟩,⟨3,0,true,some .internalNl,some 5,none,false,true,0⟩,⟨3,0,true,some .internalNl,some 5,none,true,true,0⟩],[⟨3,0,true,some (.own 7),some 5,none,true,true,0⟩,⟨3,0,true,some .internalNl,some 5,none,false,true,0⟩,⟨3,0,true,some .internalNl,some 5,none,true,true,0⟩],[⟨3,0,true,some (.own 7),some 5,none,true,true,0⟩,⟨3,0,true,some .internalNl,some 5,none,false,true,0⟩,⟨3,0,true,some .internalNl,some 5,none,true,true,0⟩],[⟨3,0,true,some (.own 7),some 5,none,true,true,0⟩,⟨3,0,true,some .internalNl,some 5,none,false,true,0⟩,⟨3,0,true,some .internalNl,some 5,none,true,true,0⟩],[⟨3,0,true,some (.own 7),some 5,none,true,true,0⟩,⟨3,0,true,some .internalNl,some 5,none,true,true,0⟩],[⟨3,0,true,some (.own 7),some 5,none,true,true,0⟩,⟨3,0,true,some .internalNl,some 5,none,false,true,0⟩,⟨3,0,true,some .internalNl,some 5,none,true,true,0⟩],[⟨3,0,true,some (.own 7),some 5,none,true,true,0⟩,⟨3,0,true,some .internalNl,some 5,none,false,true,0⟩,⟨3,0,true,some .internalNl,some 5,none,true,true,0⟩],[⟨3,0,true,some (.own 7),some 5,none,true,true,0⟩,⟨3,0,true,some .internalNl,some 5,none,false,true,0⟩,⟨3,0,true,some .internalNl,some 5,none,true,true,0⟩],[⟨3,0,true,some (.own 7),some 5,none,true,true,0⟩,⟨3,0,true,some .internalNl,some 5,none,false,true,0⟩,⟨3,0,true,some .internalNl,some 5,none,true,true,0⟩],[⟨3,0,false,some (.own 7),some 5,none,false,true,0⟩],[⟨3,0,false,some (.own 7),some 5,none,false,true,0⟩],[⟨3,0,true,some (.own 7),some 5,none,false,true,0⟩,⟨3,0,true,some .internalNl,some 5,none,false,true,0⟩],[⟨3,0,true,some (.own 7),some 5,none,false,true,0⟩,⟨3,0,true,some .internalNl,some 5,none,false,true,0⟩],[⟨3,0,true,some (.own 7),some 5,none,false,true,0⟩,⟨3,0,true,some .internalNl,some 5,none,false,true,0⟩],[⟨3,0,true,some (.own 7),some 5,none,false,true,0⟩,⟨3,0,true,some .internalNl,some 5,none,false,true,0⟩],[⟨3,0,true,some (.own 7),some 5,none,false,true,0⟩,⟨3,0,true,some .internalNl,some 5,none,false,true,0⟩],[⟨3,0,true,some (.own 7),some 5,none,false,true,0⟩,⟨3,0,true,some .internalNl,some 5,none,false,true,0⟩],[⟨3,0,true,some (.own 7),some 5,none,false,true,0⟩,⟨3,0,true,some .internalNl,some 5,none,false,true,0⟩],[⟨3,0,true,some (.own 7),some 2,none,false,true,0⟩],[⟨3,0,true,some (.own 7),some 5,none,true,true,0⟩,⟨3,0,true,some .internalNl,some 5,none,false,true,0⟩,⟨3,0,true,some .internalNl,some 5,none,true,true,0⟩],[⟨3,0,true,some .internalNl,some 5,none,true,true,0⟩],[⟨3,0,true,some (.own 7),some 5,none,true,true,0⟩,⟨3,0,true,some .internalNl,some 5,none,false,true,0⟩,⟨3,0,true,some .internalNl,some 5,none,true,true,0⟩],[⟨3,0,true,some .internalNl,some 5,none,true,true,0⟩],[⟨3,0,false,some (.own 7),some 5,none,false,true,0⟩],[⟨3,0,true,some (.own 7),some 5,none,false,true,0⟩,⟨3,0,true,some .internalNl,some 5,none,false,true,0⟩],[⟨3,0,true,some .internalNl,some 5,none,false,true,0⟩]]
theorem coffeescript_line_closed0true : closed emb18_rows coffeescript_line_tab0true (EA.start coffeescript_M coffeescript_line 0) (EA.succ coffeescript_M coffeescript_line (0, true)) (EA.eofOk coffeescript_M coffeescript_line (0, true)) = true := by
  decide +kernel
def coffeescript_line_C0true : MCert coffeescript_M coffeescript_line (0, true) := ⟨emb18_D, coffeescript_line_tab0true, coffeescript_line_closed0true, (fun h => nomatch h)⟩
theorem coffeescript_line_certs : ∀ u ∈ coffeescript_line.use, Nonempty (MCert coffeescript_M coffeescript_line u) :=
  (List.forall_mem_cons.mpr ⟨⟨coffeescript_line_C1false⟩,
  (List.forall_mem_cons.mpr ⟨⟨coffeescript_line_C0true⟩,
  (fun _ h => nomatch h)⟩)⟩)

def coffeescript_entity : EOpt := ⟨true, false, false, [(2,false)], 2⟩
def coffeescript_entity_tab2false : List (List EA) := [[⟨0,0,false,none,none,none,false,false,0⟩],[⟨1,0,false,some (.own 0),some 0,none,false,true,0⟩,⟨2,0,false,some (.own 0),some 0,none,false,true,0⟩,⟨3,0,false,some (.own 0),some 0,none,false,true,0⟩],[⟨1,0,false,some (.own 1),some 1,none,false,true,0⟩],[⟨2,0,false,some (.own 1),some 1,none,false,true,0⟩,⟨3,0,false,some (.own 1),some 1,none,false,true,0⟩],[⟨2,0,false,some (.own 1),some 1,none,false,true,0⟩],[⟨3,0,false,some (.own 1),some 1,none,false,true,0⟩],[⟨3,0,false,some (.own 1),some 1,none,false,true,0⟩],[⟨3,0,false,some (.own 1),some 1,none,false,true,0⟩],[⟨3,0,false,some (.own 1),some 1,none,false,true,0⟩],[⟨3,0,false,some (.own 1),some 1,none,false,true,0⟩],[⟨3,0,false,some (.own 1),some 1,none,false,true,0⟩],[⟨3,0,false,some (.own 1),some 1,none,false,true,0⟩],[⟨3,0,false,some (.own 1),some 1,none,false,true,0⟩],[⟨3,0,false,some (.own 1),some 1,none,false,true,0⟩],[⟨3,0,false,some (.own 1),some 1,none,false,true,0⟩]]
theorem coffeescript_entity_closed2false : closed emb20_rows coffeescript_entity_tab2false (EA.start coffeescript_M coffeescript_entity 2) (EA.succ coffeescript_M coffeescript_entity (2, false)) (EA.eofOk coffeescript_M coffeescript_entity (2, false)) = true := by
  decide +kernel
def coffeescript_entity_C2false : MCert coffeescript_M coffeescript_entity (2, false) := ⟨emb20_D, coffeescript_entity_tab2false, coffeescript_entity_closed2false, (fun h => nomatch h)⟩
theorem coffeescript_entity_certs : ∀ u ∈ coffeescript_entity.use, Nonempty (MCert coffeescript_M coffeescript_entity u) :=
  (List.forall_mem_cons.mpr ⟨⟨coffeescript_entity_C2false⟩,
  (fun _ h => nomatch h)⟩)

theorem jsp_m0 : Emb.Jsp.jsp_comment.mach = ⟨emb25_nfa, [.none], false⟩ := by decide +kernel
theorem jsp_m1 : Emb.Jsp.jsp_sq_str.mach = ⟨emb26_nfa, [.none], false⟩ := by decide +kernel
theorem jsp_m2 : Emb.Jsp.jsp_dq_str.mach = ⟨emb27_nfa, [.none], false⟩ := by decide +kernel
theorem jsp_m3 : Emb.Jsp.jsp_css_line.mach = ⟨emb0_nfa, [.none,.cb 1,.none,.none,.cb 1,.cb 1], true⟩ := by decide +kernel
theorem jsp_m4 : Emb.Jsp.jsp_js_line.mach = ⟨emb1_nfa, [.none,.cb 2,.none,.none,.cb 2,.cb 2], true⟩ := by decide +kernel
theorem jsp_m5 : Emb.Jsp.jsp_java_line.mach = ⟨emb28_nfa, [.none,.cb 3,.none,.none,.cb 3,.cb 3], true⟩ := by decide +kernel
theorem jsp_m6 : Emb.Jsp.jsp_line.mach = ⟨emb29_nfa, [.call 3,.call 4,.call 5,.cb 0,.goto 0,.goto 1,.goto 2,.cb 0,.cb 0], true⟩ := by decide +kernel
theorem jsp_m7 : Emb.Jsp.jsp_css_entity.mach = ⟨emb3_nfa, [.none,.ecb 1,.ecb 1,.none], true⟩ := by decide +kernel
theorem jsp_m8 : Emb.Jsp.jsp_js_entity.mach = ⟨emb4_nfa, [.none,.ecb 2,.ecb 2,.none], true⟩ := by decide +kernel
theorem jsp_m9 : Emb.Jsp.jsp_java_entity.mach = ⟨emb30_nfa, [.none,.ecb 3,.ecb 3,.none], true⟩ := by decide +kernel
theorem jsp_m10 : Emb.Jsp.jsp_entity.mach = ⟨emb31_nfa, [.call 7,.call 8,.call 9,.ecb 0,.ecb 0,.none], true⟩ := by decide +kernel

/-- The machines of `Emb.Jsp.parser`, with their automata as literals. -/
def jsp_M : Multi := ⟨Emb.Jsp.parser.sws, [
  ⟨emb25_nfa, [.none], false⟩,
  ⟨emb26_nfa, [.none], false⟩,
  ⟨emb27_nfa, [.none], false⟩,
  ⟨emb0_nfa, [.none,.cb 1,.none,.none,.cb 1,.cb 1], true⟩,
  ⟨emb1_nfa, [.none,.cb 2,.none,.none,.cb 2,.cb 2], true⟩,
  ⟨emb28_nfa, [.none,.cb 3,.none,.none,.cb 3,.cb 3], true⟩,
  ⟨emb29_nfa, [.call 3,.call 4,.call 5,.cb 0,.goto 0,.goto 1,.goto 2,.cb 0,.cb 0], true⟩,
  ⟨emb3_nfa, [.none,.ecb 1,.ecb 1,.none], true⟩,
  ⟨emb4_nfa, [.none,.ecb 2,.ecb 2,.none], true⟩,
  ⟨emb30_nfa, [.none,.ecb 3,.ecb 3,.none], true⟩,
  ⟨emb31_nfa, [.call 7,.call 8,.call 9,.ecb 0,.ecb 0,.none], true⟩]⟩
theorem jsp_M_eq : Emb.Jsp.parser.multi = jsp_M := by
  show Multi.mk _ [Emb.Jsp.jsp_comment.mach, Emb.Jsp.jsp_sq_str.mach, Emb.Jsp.jsp_dq_str.mach, Emb.Jsp.jsp_css_line.mach, Emb.Jsp.jsp_js_line.mach, Emb.Jsp.jsp_java_line.mach, Emb.Jsp.jsp_line.mach, Emb.Jsp.jsp_css_entity.mach, Emb.Jsp.jsp_js_entity.mach, Emb.Jsp.jsp_java_entity.mach, Emb.Jsp.jsp_entity.mach] = _
  rw [jsp_m0, jsp_m1, jsp_m2, jsp_m3, jsp_m4, jsp_m5, jsp_m6, jsp_m7, jsp_m8, jsp_m9, jsp_m10]; rfl

def jsp_line : EOpt := ⟨false, false, false, [(6,false),(3,true),(4,true),(5,true),(0,false),(1,false),(2,false)], 4⟩
def jsp_line_tab6false : List (List EA) := [[⟨0,0,false,none,none,none,false,false,0⟩],[⟨1,0,false,some (.own 0),some 3,none,false,true,0⟩,⟨2,0,false,some (.own 0),some 3,none,false,true,0⟩,⟨3,0,false,some (.own 0),some 3,none,false,true,0⟩],[⟨1,0,false,some .newline,none,none,false,false,0⟩],[⟨1,0,false,some .newline,some 7,none,false,false,0⟩],[⟨1,0,false,some (.own 5),some 8,none,false,true,0⟩],[⟨2,0,false,some (.own 5),some 8,none,false,true,0⟩],[⟨2,0,false,some (.own 5),some 8,none,false,true,0⟩],[⟨3,0,false,some (.own 5),some 8,none,false,true,0⟩],[⟨3,0,false,some (.own 5),some 8,none,false,true,0⟩],[⟨3,0,false,some (.own 5),some 8,none,false,true,0⟩],[⟨3,0,false,some (.own 5),some 8,none,false,true,0⟩],[⟨3,0,false,some (.own 5),some 8,none,false,true,0⟩],[⟨3,0,false,some (.own 5),some 8,none,false,true,0⟩],[⟨3,0,false,some (.own 5),some 8,none,false,true,0⟩],[⟨3,0,false,some (.own 5),some 8,none,false,true,0⟩],[⟨3,0,false,some (.own 5),some 8,none,false,true,0⟩],[⟨3,0,false,some (.own 5),some 8,none,false,true,0⟩],[⟨3,0,false,some (.own 5),some 8,none,false,true,0⟩],[⟨3,0,false,some (.own 5),some 8,none,false,true,0⟩],[⟨3,0,false,some (.own 5),some 8,none,false,true,0⟩],[⟨3,0,false,some (.own 5),some 8,none,false,true,0⟩],[⟨3,0,false,some (.own 5),some 8,none,false,true,0⟩],[⟨3,0,false,some (.own 5),some 8,none,false,true,0⟩],[⟨3,0,false,some (.own 5),some 8,none,false,true,0⟩],[⟨3,0,false,some (.own 5),some 8,none,false,true,0⟩],[⟨3,0,false,some (.own 5),some 8,none,false,true,0⟩],[⟨3,0,false,some (.own 5),some 8,none,false,true,0⟩],[⟨3,0,false,some (.own 5),some 8,none,false,true,0⟩],[⟨3,0,false,some (.own 5),some 8,none,false,true,0⟩],[⟨3,0,false,some (.own 5),some 8,none,false,true,0⟩],[⟨3,0,false,some (.own 5),some 8,none,false,true,0⟩],[⟨3,0,false,some (.own 5),some 8,none,false,true,0⟩],[⟨3,0,false,some (.own 5),some 8,none,false,true,0⟩],[⟨3,0,false,some (.own 5),some 8,none,false,true,0⟩],[⟨3,0,false,some (.own 5),some 8,none,false,true,0⟩],[⟨3,0,false,some (.own 5),some 8,none,false,true,0⟩],[⟨3,0,false,some (.own 5),some 8,none,false,true,0⟩],[⟨3,0,false,some (.own 5),some 8,none,false,true,0⟩],[⟨3,0,false,some (.own 5),some 8,none,false,true,0⟩],[⟨3,0,false,some (.own 5),some 8,none,false,true,0⟩],[⟨3,0,false,some (.own 5),some 8,none,false,true,0⟩],[⟨3,0,false,some (.own 5),some 8,none,false,true,0⟩],[⟨3,0,false,some (.own 5),some 8,none,false,true,0⟩],[⟨3,0,false,some (.own 5),some 8,none,false,true,0⟩]]
theorem jsp_line_closed6false : closed emb29_rows jsp_line_tab6false (EA.start jsp_M jsp_line 6) (EA.succ jsp_M jsp_line (6, false)) (EA.eofOk jsp_M jsp_line (6, false)) = true := by
  decide +kernel
def jsp_line_C6false : MCert jsp_M jsp_line (6, false) := ⟨emb29_D, jsp_line_tab6false, jsp_line_closed6false, (fun h => nomatch h)⟩
def jsp_line_tab3true : List (List EA) := [[⟨0,0,false,none,none,none,false,false,0⟩],[⟨1,0,false,some (.own 0),some 1,none,false,true,0⟩,⟨2,0,false,some (.own 0),some 1,none,false,true,0⟩,⟨3,0,false,some (.own 0),some 1,none,false,true,0⟩],[⟨1,0,false,some .newline,none,none,false,false,0⟩],[⟨1,0,false,some .newline,some 4,none,false,false,0⟩],[⟨1,0,true,some (.own 9),some 5,none,true,true,0⟩],[⟨1,0,true,some (.own 9),some 5,none,true,true,0⟩],[⟨1,0,false,some (.own 9),some 5,none,false,true,0⟩],[⟨1,0,false,some (.own 9),some 5,none,false,true,0⟩],[⟨2,0,true,some (.own 9),some 5,none,true,true,0⟩,⟨3,0,true,some (.own 9),some 5,none,true,true,0⟩,⟨3,0,true,some .internalNl,some 5,none,true,true,0⟩],[⟨2,0,true,some (.own 9),some 5,none,true,true,0⟩,⟨3,0,true,some (.own 9),some 5,none,true,true,0⟩,⟨3,0,true,some .internalNl,some 5,none,false,true,0⟩,⟨3,0,true,some .internalNl,some 5,none,true,true,0⟩],[⟨2,0,true,some (.own 9),some 5,none,true,true,0⟩,⟨3,0,true,some (.own 9),some 5,none,true,true,0⟩,⟨3,0,true,some .internalNl,some 5,none,false,true,0⟩,⟨3,0,true,some .internalNl,some 5,none,true,true,0⟩],[⟨2,0,true,some (.own 9),some 5,none,true,true,0⟩,⟨3,0,true,some (.own 9),some 5,none,true,true,0⟩,⟨3,0,true,some .internalNl,some 5,none,false,true,0⟩,⟨3,0,true,some .internalNl,some 5,none,true,true,0⟩],[⟨2,0,true,some (.own 9),some 5,none,true,true,0⟩,⟨3,0,true,some (.own 9),some 5,none,true,true,0⟩,⟨3,0,true,some .internalNl,some 5,none,false,true,0⟩,⟨3,0,true,some .internalNl,some 5,none,true,true,0⟩],[⟨2,0,true,some (.own 9),some 5,none,true,true,0⟩,⟨3,0,true,some (.own 9),some 5,none,true,true,0⟩,⟨3,0,true,some .internalNl,some 5,none,false,true,0⟩,⟨3,0,true,some .internalNl,some 5,none,true,true,0⟩],[⟨2,0,true,some (.own 9),some 5,none,true,true,0⟩,⟨3,0,true,some (.own 9),some 5,none,true,true,0⟩,⟨3,0,true,some .internalNl,some 5,none,false,true,0⟩,⟨3,0,true,some .internalNl,some 5,none,true,true,0⟩],[⟨2,0,true,some (.own 9),some 5,none,true,true,0⟩,⟨3,0,true,some (.own 9),some 5,none,true,true,0⟩,⟨3,0,true,some .internalNl,some 5,none,true,true,0⟩],[⟨2,0,true,some (.own 9),some 5,none,true,true,0⟩,⟨3,0,true,some (.own 9),some 5,none,true,true,0⟩,⟨3,0,true,some .internalNl,some 5,none,false,true,0⟩,⟨3,0,true,some .internalNl,some 5,none,true,true,0⟩],[⟨2,0,true,some (.own 9),some 5,none,true,true,0⟩,⟨3,0,true,some (.own 9),some 5,none,true,true,0⟩,⟨3,0,true,some .internalNl,some 5,none,false,true,0⟩,⟨3,0,true,some .internalNl,some 5,none,true,true,0⟩],[⟨2,0,true,some (.own 9),some 5,none,true,true,0⟩,⟨3,0,true,some (.own 9),some 5,none,true,true,0⟩,⟨3,0,true,some .internalNl,some 5,none,false,true,0⟩,⟨3,0,true,some .internalNl,some 5,none,true,true,0⟩],[⟨2,0,true,some (.own 9),some 5,none,true,true,0⟩,⟨3,0,true,some (.own 9),some 5,none,true,true,0⟩,⟨3,0,true,some .internalNl,some 5,none,false,true,0⟩,⟨3,0,true,some .internalNl,some 5,none,true,true,0⟩],[⟨2,0,true,some (.own 9),some 5,none,true,true,0⟩,⟨3,0,true,some (.own 9),some 5,none,true,true,0⟩,⟨3,0,true,some .internalNl,some 5,none,false,true,0⟩,⟨3,0,true,some .internalNl,some 5,none,true,true,0⟩],[⟨2,0,true,some (.own 9),some 5,none,true,true,0⟩,⟨3,0,true,some (.own 9),some 5,none,true,true,0⟩,⟨3,0,true,some .internalNl,some 5,none,false,true,0⟩,⟨3,0,true,some .internalNl,some 5,none,true,true,0⟩],[⟨2,0,true,some (.own 9),some 5,none,false,true,0⟩],[⟨2,0,false,some (.own 9),some 5,none,false,true,0⟩],[⟨3,0,true,some (.own 9),some 5,none,true,true,0⟩,⟨3,0,true,some .internalNl,some 5,none,false,true,0⟩,⟨3,0,true,some .internalNl,some 5,none,true,true,0⟩],[⟨3,0,true,some .internalNl,some 5,none,false,true,0⟩],[⟨3,0,true,some (.own 9),some 5,none,true,true,0⟩,⟨3,0,true,some .internalNl,some 5,none,true,true,0⟩],[⟨3,0,true,some (.own 9),some 5,none,true,true,0⟩,⟨3,0,true,some .internalNl,some 5,none,false,true,0⟩,⟨3,0,true,some .internalNl,some 5,none,true,true,0⟩],[⟨3,0,true,some .internalNl,some 5,none,false,true,0⟩],[⟨3,0,true,some (.own 9),some 5,none,true,true,0⟩,⟨3,0,true,some .internalNl,some 5,none,true,true,0⟩],[⟨3,0,true,some (.own 9),some 5,none,false,true,0⟩,⟨3,0,true,some .internalNl,some 5,none,false,true,0⟩],[⟨3,0,true,some (.own 9),some 5,none,false,true,0⟩,⟨3,0,true,some .internalNl,some 5,none,false,true,0⟩],[⟨3,0,true,some (.own 9),some 5,none,false,true,0⟩,⟨3,0,true,some .internalNl,some 5,none,false,true,0⟩],[⟨3,0,true,some (.own 9),some 5,none,false,true,0⟩,⟨3,0,true,some .internalNl,some 5,none,false,true,0⟩],[⟨3,0,true,some (.own 9),some 5,none,false,true,0⟩,⟨3,0,true,some .internalNl,some 5,none,false,true,0⟩],[⟨3,0,true,some (.own 9),some 5,none,false,true,0⟩,⟨3,0,true,some .internalNl,some 5,none,false,true,0⟩],[⟨3,0,true,some (.own 9),some 5,none,false,true,0⟩,⟨3,0,true,some .internalNl,some 5,none,false,true,0⟩],[⟨3,0,false,some (.own 9),some 5,none,false,true,0⟩],[⟨3,0,true,some (.own 9),some 5,none,false,true,0⟩,⟨3,0,true,some .internalNl,some 5,none,false,true,0⟩],[⟨3,0,true,some .internalNl,some 5,none,false,true,0⟩],[⟨3,0,false,some (.own 9),some 5,none,false,true,0⟩],[⟨3,0,false,some (.own 9),some 5,none,false,true,0⟩],[⟨3,0,false,some (.own 9),some 5,none,false,true,0⟩],[⟨3,0,false,some (.own 9),some 5,none,false,true,0⟩],[⟨3,0,false,some (.own 9),some 5,none,false,true,0⟩,⟨3,0,true,some .internalNl,some 5,none,false,true,0⟩],[⟨3,0,false,some .internalNl,some 5,none,false,true,0⟩,⟨3,0,true,some .internalNl,some 5,none,false,true,0⟩],[⟨3,0,false,some .internalNl,some 5,none,false,true,0⟩,⟨3,0,true,some .internalNl,some 5,none,false,true,0⟩],[⟨3,0,false,some (.own 9),some 5,none,false,true,0⟩,⟨3,0,true,some .internalNl,some 5,none,false,true,0⟩],[⟨3,0,false,some .internalNl,some 5,none,false,true,0⟩,⟨3,0,true,some .internalNl,some 5,none,false,true,0⟩],[⟨3,0,false,some .internalNl,some 5,none,false,true,0⟩,⟨3,0,true,some .internalNl,some 5,none,false,true,0⟩],[⟨3,0,true,some .internalNl,some 5,none,false,true,0⟩]]
theorem jsp_line_closed3true : closed emb0_rows jsp_line_tab3true (EA.start jsp_M jsp_line 3) (EA.succ jsp_M jsp_line (3, true)) (EA.eofOk jsp_M jsp_line (3, true)) = true := by
  decide +kernel
def jsp_line_C3true : MCert jsp_M jsp_line (3, true) := ⟨emb0_D, jsp_line_tab3true, jsp_line_closed3true, (fun h => nomatch h)⟩
def jsp_line_tab4true : List (List EA) := [[⟨0,0,false,none,none,none,false,false,0⟩],[⟨1,0,false,some (.own 0),some 1,none,false,true,0⟩,⟨2,0,false,some (.own 0),some 1,none,false,true,0⟩,⟨3,0,false,some (.own 0),some 1,none,false,true,0⟩],[⟨1,0,false,some .newline,none,none,false,false,0⟩],[⟨1,0,false,some .newline,some 4,none,false,false,0⟩],[⟨1,0,true,some (.own 7),some 5,none,true,true,0⟩],[⟨1,0,true,some (.own 7),some 5,none,true,true,0⟩],[⟨1,0,false,some (.own 7),some 5,none,false,true,0⟩],[⟨1,0,false,some (.own 7),some 5,none,false,true,0⟩],[⟨2,0,true,some (.own 7),some 5,none,true,true,0⟩,⟨3,0,true,some (.own 7),some 5,none,true,true,0⟩,⟨3,0,true,some .internalNl,some 5,none,true,true,0⟩],[⟨2,0,true,some (.own 7),some 5,none,true,true,0⟩,⟨3,0,true,some (.own 7),some 5,none,true,true,0⟩,⟨3,0,true,some .internalNl,some 5,none,false,true,0⟩,⟨3,0,true,some .internalNl,some 5,none,true,true,0⟩],[⟨2,0,true,some (.own 7),some 5,none,true,true,0⟩,⟨3,0,true,some (.own 7),some 5,none,true,true,0⟩,⟨3,0,true,some .internalNl,some 5,none,false,true,0⟩,⟨3,0,true,some .internalNl,some 5,none,true,true,0⟩],[⟨2,0,true,some (.own 7),some 5,none,true,true,0⟩,⟨3,0,true,some (.own 7),some 5,none,true,true,0⟩,⟨3,0,true,some .internalNl,some 5,none,true,true,0⟩],[⟨2,0,true,some (.own 7),some 5,none,true,true,0⟩,⟨3,0,true,some (.own 7),some 5,none,true,true,0⟩,⟨3,0,true,some .internalNl,some 5,none,false,true,0⟩,⟨3,0,true,some .internalNl,some 5,none,true,true,0⟩],[⟨2,0,true,some (.own 7),some 5,none,true,true,0⟩,⟨3,0,true,some (.own 7),some 5,none,true,true,0⟩,⟨3,0,true,some .internalNl,some 5,none,false,true,0⟩,⟨3,0,true,some .internalNl,some 5,none,true,true,0⟩],[⟨2,0,false,some (.own 7),some 5,none,false,true,0⟩],[⟨2,0,true,some (.own 7),some 5,none,false,true,0⟩],[⟨2,0,true,some (.own 7),some 2,none,false,true,0⟩],[⟨2,0,false,some (.own 7),some 5,none,false,true,0⟩],[⟨3,0,true,some (.own 7),some 5,none,true,true,0⟩,⟨3,0,true,some .internalNl,some 5,none,true,true,0⟩],[⟨3,0,true,some (.own 7),some 5,none,true,true,0⟩,⟨3,0,true,some .internalNl,some 5,none,false,true,0⟩,⟨3,0,true,some .internalNl,some 5,none,true,true,0⟩],[⟨3,0,true,some (.own 7),some 5,none,true,true,0⟩,⟨3,0,true,some .internalNl,some 5,none,false,true,0⟩,⟨3,0,true,some .internalNl,some 5,none,true,true,0⟩],[⟨3,0,true,some (.own 7),some 5,none,true,true,0⟩,⟨3,0,true,some .internalNl,some 5,none,false,true,0⟩,⟨3,0,true,some .internalNl,some 5,none,true,true,0⟩],[⟨3,0,true,some (.own 7),some 5,none,true,true,0⟩,⟨3,0,true,some .internalNl,some 5,none,false,true,0⟩,⟨3,0,true,some .internalNl,some 5,none,true,true,0⟩],[⟨3,0,true,some (.own 7),some 5,none,true,true,0⟩,⟨3,0,true,some .internalNl,some 5,none,true,true,0⟩],[⟨3,0,true,some (.own 7),some 5,none,true,true,0⟩,⟨3,0,true,some .internalNl,some 5,none,false,true,0⟩,⟨3,0,true,some .internalNl,some 5,none,true,true,0⟩],[⟨3,0,true,some (.own 7),some 5,none,true,true,0⟩,⟨3,0,true,some .internalNl,some 5,none,false,true,0⟩,⟨3,0,true,some .internalNl,some 5,none,true,true,0⟩],[⟨3,0,true,some (.own 7),some 5,none,true,true,0⟩,⟨3,0,true,some .internalNl,some 5,none,false,true,0⟩,⟨3,0,true,some .internalNl,some 5,none,true,true,0⟩],[⟨3,0,true,some (.own 7),some 5,none,true,true,0⟩,⟨3,0,true,some .internalNl,some 5,none,false,true,0⟩,⟨3,0,true,some .internalNl,some 5,none,true,true,0⟩],[⟨3,0,false,some (.own 7),some 5,none,false,true,0⟩],[⟨3,0,false,some (.own 7),some 5,none,false,true,0⟩],[⟨3,0,true,some (.own 7),some 5,none,false,true,0⟩,⟨3,0,true,some .internalNl,some 5,none,false,true,0⟩],[⟨3,0,true,some (.own 7),some 5,none,false,true,0⟩,⟨3,0,true,some .internalNl,some 5,none,false,true,0⟩],[⟨3,0,true,some (.own 7),some 5,none,false,true,0⟩,⟨3,0,true,some .internalNl,some 5,none,false,true,0⟩],[⟨3,0,true,some (.own 7),some 5,none,false,true,0⟩,⟨3,0,true,some .internalNl,some 5,none,false,true,0⟩],[⟨3,0,true,some (.own 7),some 5,none,false,true,0⟩,⟨3,0,true,some .internalNl,some 5,none,false,true,0⟩],[⟨3,0,true,some (.own 7),some 5,none,false,true,0⟩,⟨3,0,true,some .internalNl,some 5,none,false,true,0⟩],[⟨3,0,true,some (.own 7),some 5,none,false,true,0⟩,⟨3,0,true,some .internalNl,some 5,none,false,true,0⟩],[⟨3,0,true,some (.own 7),some 2,none,false,true,0⟩],[⟨3,0,false,some (.own 7),some 5,none,false,true,0⟩],[⟨3,0,true,some (.own 7),some 5,none,true,true,0⟩,⟨3,0,true,some .internalNl,some 5,none,false,true,0⟩,⟨3,0,true,some .internalNl,some 5,none,true,true,0⟩],[⟨3,0,true,some .internalNl,some 5,none,true,true,0⟩],[⟨3,0,true,some (.own 7),some 5,none,true,true,0⟩,⟨3,0,true,some .internalNl,some 5,none,false,true,0⟩,⟨3,0,true,some .internalNl,some 5,none,true,true,0⟩],[⟨3,0,true,some .internalNl,some 5,none,true,true,0⟩],[⟨3,0,false,some (.own 7),some 5,none,false,true,0⟩],[⟨3,0,true,some (.own 7),some 5,none,false,true,0⟩,⟨3,0,true,some .internalNl,some 5,none,false,true,0⟩],[⟨3,0,true,some .internalNl,some 5,none,false,true,0⟩],[⟨3,0,false,some (.own 7),some 5,none,false,true,0⟩],[⟨3,0,false,some (.own 7),some 5,none,false,true,0⟩],[⟨3,0,false,some (.own 7),some 5,none,false,true,0⟩],[⟨3,0,false,some (.own 7),some 5,none,false,true,0⟩],[⟨3,0,false,some (.own 7),some 5,none,false,true,0⟩],[⟨3,0,false,some (.own 7),some 5,none,false,true,0⟩,⟨3,0,true,some .internalNl,some 5,none,false,true,0⟩],[⟨3,0,false,some .internalNl,some 5,none,false,true,0⟩,⟨3,0,true,some .internalNl,some 5,none,false,true,0⟩],[⟨3,0,false,some .internalNl,some 5,none,false,true,0⟩,⟨3,0,true,some .internalNl,some 5,none,false,true,0⟩],[⟨3,0,false,some (.own 7),some 5,none,false,true,0⟩,⟨3,0,true,some .internalNl,some 5,none,false,true,0⟩],[⟨3,0,false,some .internalNl,some 5,none,false,true,0⟩,⟨3,0,true,some .internalNl,some 5,none,false,true,0⟩],[⟨3,0,false,some .internalNl,some 5,none,false,true,0⟩,⟨3,0,true,some .internalNl,some 5,none,false,true,0⟩],[⟨3,0,true,some .internalNl,some 5,none,false,true,0⟩]]
theorem jsp_line_closed4true : closed emb1_rows jsp_line_tab4true (EA.start jsp_M jsp_line 4) (EA.succ jsp_M jsp_line (4, true)) (EA.eofOk jsp_M jsp_line (4, true)) = true := by
  decide +kernel
def jsp_line_C4true : MCert jsp_M jsp_line (4, true) := ⟨emb1_D, jsp_line_tab4true, jsp_line_closed4true, (fun h => nomatch h)⟩
def jsp_line_tab5true : List (List EA) := [[⟨0,0,false,none,none,none,false,false,0⟩],[⟨1,0,false,some (.own 0),some 1,none,false,true,0⟩,⟨2,0,false,some (.own 0),some 1,none,false,true,0⟩,⟨3,0,false,some (.own 0),some 1,none,false,true,0⟩],[⟨1,0,false,some .newline,none,none,false,false,0⟩],[⟨1,0,false,some .newline,some 4,none,false,false,0⟩],[⟨1,0,true,some (.own 7),some 5,none,true,true,0⟩],[⟨1,0,false,some (.own 7),some 5,none,false,true,0⟩],[⟨1,0,true,some (.own 7),some 5,none,true,true,0⟩],[⟨1,0,false,some (.own 7),some 5,none,false,true,0⟩],[⟨2,0,true,some (.own 7),some 5,none,true,true,0⟩,⟨3,0,true,some (.own 7),some 5,none,true,true,0⟩],[⟨2,0,true,some (.own 7),some 5,none,true,true,0⟩,⟨3,0,true,some (.own 7),some 5,none,true,true,0⟩],[⟨2,0,true,some (.own 7),some 5,none,true,true,0⟩,⟨3,0,true,some (.own 7),some 5,none,true,true,0⟩],[⟨2,0,true,some (.own 7),some 5,none,true,true,0⟩,⟨3,0,true,some (.own 7),some 5,none,true,true,0⟩],[⟨2,0,true,some (.own 7),some 5,none,false,true,0⟩],[⟨2,0,true,some (.own 7),some 2,none,false,true,0⟩],[⟨3,0,true,some (.own 7),some 5,none,true,true,0⟩],[⟨3,0,true,some (.own 7),some 5,none,true,true,0⟩],[⟨3,0,true,some (.own 7),some 5,none,false,true,0⟩,⟨3,0,true,some .internalNl,some 5,none,false,true,0⟩],[⟨3,0,true,some (.own 7),some 5,none,false,true,0⟩,⟨3,0,true,some .internalNl,some 5,none,false,true,0⟩],[⟨3,0,true,some (.own 7),some 5,none,false,true,0⟩,⟨3,0,true,some .internalNl,some 5,none,false,true,0⟩],[⟨3,0,true,some (.own 7),some 5,none,false,true,0⟩,⟨3,0,true,some .internalNl,some 5,none,false,true,0⟩],[⟨3,0,true,some (.own 7),some 5,none,false,true,0⟩,⟨3,0,true,some .internalNl,some 5,none,false,true,0⟩],[⟨3,0,true,some (.own 7),some 5,none,false,true,0⟩,⟨3,0,true,some .internalNl,some 5,none,false,true,0⟩],[⟨3,0,true,some (.own 7),some 5,none,false,true,0⟩,⟨3,0,true,some .internalNl,some 5,none,false,true,0⟩],[⟨3,0,true,some (.own 7),some 2,none,false,true,0⟩],[⟨3,0,true,some (.own 7),some 5,none,false,true,0⟩,⟨3,0,true,some .internalNl,some 5,none,false,true,0⟩],[⟨3,0,true,some .internalNl,some 5,none,false,true,0⟩]]
theorem jsp_line_closed5true : closed emb28_rows jsp_line_tab5true (EA.start jsp_M jsp_line 5) (EA.succ jsp_M jsp_line (5, true)) (EA.eofOk jsp_M jsp_line (5, true)) = true := by
  decide +kernel
def jsp_line_C5true : MCert jsp_M jsp_line (5, true) := ⟨emb28_D, jsp_line_tab5true, jsp_line_closed5true, (fun h => nomatch h)⟩
def jsp_line_tab0false : List (List EA) := [[⟨0,0,true,none,none,none,false,false,0⟩],[⟨0,0,true,none,none,none,false,false,0⟩,⟨0,0,true,some .internalNl,none,none,false,true,0⟩],[⟨0,0,true,none,none,none,false,false,0⟩,⟨0,0,true,some .internalNl,none,none,false,true,0⟩],[⟨0,0,true,none,none,none,false,false,0⟩,⟨0,0,true,some .internalNl,none,none,false,true,0⟩],[⟨0,0,true,none,none,none,false,false,0⟩,⟨0,0,true,some .internalNl,none,none,false,true,0⟩],[⟨0,0,true,none,none,none,false,false,0⟩,⟨0,0,true,some .internalNl,none,none,false,true,0⟩],[⟨0,0,true,none,none,none,false,false,0⟩,⟨0,0,true,some .internalNl,none,none,false,true,0⟩],[⟨0,0,true,none,none,none,false,false,0⟩,⟨0,0,true,some .internalNl,none,none,false,true,0⟩],[⟨0,0,true,none,none,none,false,false,0⟩,⟨0,0,true,some .internalNl,none,none,false,true,0⟩],[⟨0,0,true,none,none,none,false,false,0⟩,⟨0,0,true,some .internalNl,none,none,false,true,0⟩],[⟨0,0,true,some .internalNl,none,none,false,true,0⟩],[⟨0,0,true,none,none,none,false,false,0⟩,⟨0,0,true,some .internalNl,none,none,false,true,0⟩],[⟨0,0,true,none,none,none,false,false,0⟩,⟨0,0,true,some .internalNl,none,none,false,true,0⟩],[⟨0,0,true,none,none,none,false,false,0⟩,⟨0,0,true,some .internalNl,none,none,false,true,0⟩],[⟨0,0,true,none,none,none,false,false,0⟩,⟨0,0,true,some .internalNl,none,none,false,true,0⟩],[⟨0,0,true,none,none,none,false,false,0⟩,⟨0,0,true,some .internalNl,none,none,false,true,0⟩],[⟨0,0,true,none,none,none,false,false,0⟩,⟨0,0,true,some .internalNl,none,none,false,true,0⟩],[⟨0,0,true,none,none,none,false,false,0⟩,⟨0,0,true,some .internalNl,none,none,false,true,0⟩],[⟨0,0,true,none,none,none,false,false,0⟩,⟨0,0,true,some .internalNl,none,none,false,true,0⟩],[⟨0,0,false,none,none,none,false,false,0⟩],[⟨0,0,true,none,none,none,false,false,0⟩,⟨0,0,true,some .internalNl,none,none,false,true,0⟩],[⟨0,0,true,none,none,none,false,false,0⟩,⟨0,0,true,some .internalNl,none,none,false,true,0⟩],[⟨0,0,true,none,none,none,false,false,0⟩,⟨0,0,true,some .internalNl,none,none,false,true,0⟩],[⟨0,0,true,none,none,none,false,false,0⟩,⟨0,0,true,some .internalNl,none,none,false,true,0⟩,⟨0,0,false,none,none,none,false,false,0⟩],[⟨0,0,true,none,none,none,false,false,0⟩,⟨0,0,true,some .internalNl,none,none,false,true,0⟩,⟨0,0,false,none,none,none,false,false,0⟩],[⟨0,0,true,none,none,none,false,false,0⟩,⟨0,0,true,some .internalNl,none,none,false,true,0⟩,⟨0,0,false,none,none,none,false,false,0⟩],[⟨0,0,true,none,none,none,false,false,0⟩,⟨0,0,true,some .internalNl,none,none,false,true,0⟩,⟨0,0,false,none,none,none,false,false,0⟩],[⟨0,0,true,none,none,none,false,false,0⟩,⟨0,0,true,some .internalNl,none,none,false,true,0⟩,⟨0,0,false,none,none,none,false,false,0⟩],[⟨0,0,true,none,none,none,false,false,0⟩,⟨0,0,true,some .internalNl,none,none,false,true,0⟩,⟨0,0,false,none,none,none,false,false,0⟩],[⟨0,0,true,none,none,none,false,false,0⟩,⟨0,0,true,some .internalNl,none,none,false,true,0⟩,⟨0,0,false,none,none,none,false,false,0⟩],[⟨0,0,true,none,none,none,false,false,0⟩,⟨0,0,true,some .internalNl,none,none,false,true,0⟩,⟨0,0,false,none,none,none,false,false,0⟩],[⟨0,0,true,none,none,none,false,false,0⟩,⟨0,0,true,some .internalNl,none,none,false,true,0⟩,⟨0,0,false,none,none,none,false,false,0⟩],[⟨0,0,true,none,none,none,false,false,0⟩],[⟨0,0,false,none,none,none,false,false,0⟩],[⟨0,0,false,none,none,none,false,false,0⟩],[⟨0,0,false,none,none,none,false,false,0⟩],[⟨0,0,false,none,none,none,false,false,0⟩],[⟨0,0,false,none,none,none,false,false,0⟩],[⟨0,0,false,none,none,none,false,false,0⟩],[⟨0,0,false,none,none,none,false,false,0⟩],[⟨0,0,false,none,none,none,false,false,0⟩],[⟨0,0,true,none,none,none,false,false,0⟩,⟨0,0,true,some .internalNl,none,none,false,true,0⟩,⟨0,0,false,none,none,none,false,false,0⟩],[⟨0,0,true,none,none,none,false,false,0⟩,⟨0,0,true,some .internalNl,none,none,false,true,0⟩],[⟨0,0,true,none,none,none,false,false,0⟩,⟨0,0,true,some .internalNl,none,none,false,true,0⟩,⟨0,0,false,none,none,none,false,false,0⟩],[⟨0,0,true,none,none,none,false,false,0⟩,⟨0,0,true,some .internalNl,none,none,false,true,0⟩,⟨0,0,false,none,none,none,false,false,0⟩],[⟨0,0,true,none,none,none,false,false,0⟩,⟨0,0,true,some .internalNl,none,none,false,true,0⟩,⟨0,0,false,none,none,none,false,false,0⟩],[⟨0,0,true,none,none,none,false,false,0⟩,⟨0,0,true,some .internalNl,none,none,false,true,0⟩,⟨0,0,false,none,none,none,false,false,0⟩],[⟨0,0,true,none,none,none,false,false,0⟩,⟨0,0,true,some .internalNl,none,none,false,true,0⟩,⟨0,0,false,none,none,none,false,false,0⟩],[⟨0,0,true,none,none,none,false,false,0⟩,⟨0,0,true,some .internalNl,none,none,false,true,0⟩,⟨0,0,false,none,none,none,false,false,0⟩],[⟨0,0,false,none,none,none,false,false,0⟩],[⟨0,0,true,none,none,none,false,false,0⟩,⟨0,0,true,some .internalNl,none,none,false,true,0⟩,⟨0,0,false,none,none,none,false,false,0⟩],[⟨0,0,true,none,none,none,false,false,0⟩,⟨0,0,true,some .internalNl,none,none,false,true,0⟩,⟨0,0,false,none,none,none,false,false,0⟩],[⟨0,0,true,none,none,none,false,false,0⟩],[⟨0,0,false,none,none,none,false,false,0⟩],[⟨0,0,false,none,none,none,false,false,0⟩],[⟨0,0,false,none,none,none,false,false,0⟩],[⟨0,0,false,none,none,none,false,false,0⟩],[⟨0,0,false,none,none,none,false,false,0⟩],[⟨0,0,false,none,none,none,false,false,0⟩],[⟨0,0,false,none,none,none,false,false,0⟩],[⟨0,0,false,none,none,none,false,false,0⟩]]
theorem jsp_line_closed0false : closed emb25_rows jsp_line_tab0false (EA.start jsp_M jsp_line 0) (EA.succ jsp_M jsp_line (0, false)) (EA.eofOk jsp_M jsp_line (0, false)) = true := by
  decide +kernel
def jsp_line_C0false : MCert jsp_M jsp_line (0, false) := ⟨emb25_D, jsp_line_tab0false, jsp_line_closed0false, (fun h => nomatch h)⟩
def jsp_line_tab1false : List (List EA) := [[⟨0,0,true,none,none,none,false,false,0⟩],[⟨0,0,true,none,none,none,true,false,0⟩,⟨0,0,true,some .internalNl,none,none,true,true,0⟩],[⟨0,0,true,none,none,none,false,false,0⟩,⟨0,0,true,none,none,none,true,false,0⟩,⟨0,0,true,some .internalNl,none,none,false,true,0⟩,⟨0,0,true,some .internalNl,none,none,true,true,0⟩],[⟨0,0,true,none,none,none,false,false,0⟩,⟨0,0,true,none,none,none,true,false,0⟩,⟨0,0,true,some .internalNl,none,none,false,true,0⟩,⟨0,0,true,some .internalNl,none,none,true,true,0⟩],[⟨0,0,true,none,none,none,false,false,0⟩,⟨0,0,true,none,none,none,true,false,0⟩,⟨0,0,true,some .internalNl,none,none,false,true,0⟩,⟨0,0,true,some .internalNl,none,none,true,true,0⟩],[⟨0,0,true,none,none,none,false,false,0⟩,⟨0,0,true,none,none,none,true,false,0⟩,⟨0,0,true,some .internalNl,none,none,false,true,0⟩,⟨0,0,true,some .internalNl,none,none,true,true,0⟩],[⟨0,0,true,none,none,none,false,false,0⟩,⟨0,0,true,none,none,none,true,false,0⟩,⟨0,0,true,some .internalNl,none,none,false,true,0⟩,⟨0,0,true,some .internalNl,none,none,true,true,0⟩],[⟨0,0,true,none,none,none,false,false,0⟩,⟨0,0,true,none,none,none,true,false,0⟩,⟨0,0,true,some .internalNl,none,none,false,true,0⟩,⟨0,0,true,some .internalNl,none,none,true,true,0⟩],[⟨0,0,true,none,none,none,false,false,0⟩,⟨0,0,true,none,none,none,true,false,0⟩,⟨0,0,true,some .internalNl,none,none,false,true,0⟩,⟨0,0,true,some .internalNl,none,none,true,true,0⟩],[⟨0,0,true,none,none,none,false,false,0⟩,⟨0,0,true,none,none,none,true,false,0⟩,⟨0,0,true,some .internalNl,none,none,false,true,0⟩,⟨0,0,true,some .internalNl,none,none,true,true,0⟩],[⟨0,0,true,some .internalNl,none,none,false,true,0⟩],[⟨0,0,true,none,none,none,true,false,0⟩,⟨0,0,true,some .internalNl,none,none,true,true,0⟩],[⟨0,0,true,none,none,none,false,false,0⟩,⟨0,0,true,none,none,none,true,false,0⟩,⟨0,0,true,some .internalNl,none,none,false,true,0⟩,⟨0,0,true,some .internalNl,none,none,true,true,0⟩],[⟨0,0,true,none,none,none,false,false,0⟩,⟨0,0,true,none,none,none,true,false,0⟩,⟨0,0,true,some .internalNl,none,none,false,true,0⟩,⟨0,0,true,some .internalNl,none,none,true,true,0⟩],[⟨0,0,true,none,none,none,false,false,0⟩,⟨0,0,true,none,none,none,true,false,0⟩,⟨0,0,true,some .internalNl,none,none,false,true,0⟩,⟨0,0,true,some .internalNl,none,none,true,true,0⟩],[⟨0,0,true,none,none,none,false,false,0⟩,⟨0,0,true,none,none,none,true,false,0⟩,⟨0,0,true,some .internalNl,none,none,false,true,0⟩,⟨0,0,true,some .internalNl,none,none,true,true,0⟩],[⟨0,0,true,none,none,none,false,false,0⟩,⟨0,0,true,none,none,none,true,false,0⟩,⟨0,0,true,some .internalNl,none,none,false,true,0⟩,⟨0,0,true,some .internalNl,none,none,true,true,0⟩],[⟨0,0,false,none,none,none,false,false,0⟩],[],[⟨0,0,true,none,none,none,false,false,0⟩,⟨0,0,true,none,none,none,true,false,0⟩,⟨0,0,true,some .internalNl,none,none,false,true,0⟩,⟨0,0,true,some .internalNl,none,none,true,true,0⟩],[⟨0,0,true,none,none,none,false,false,0⟩,⟨0,0,true,none,none,none,true,false,0⟩,⟨0,0,true,some .internalNl,none,none,false,true,0⟩,⟨0,0,true,some .internalNl,none,none,true,true,0⟩],[⟨0,0,true,none,none,none,true,false,0⟩,⟨0,0,true,some .internalNl,none,none,true,true,0⟩],[⟨0,0,true,none,none,none,true,false,0⟩,⟨0,0,true,some .internalNl,none,none,true,true,0⟩],[⟨0,0,true,none,none,none,true,false,0⟩,⟨0,0,true,none,none,none,false,false,0⟩,⟨0,0,true,some .internalNl,none,none,false,true,0⟩,⟨0,0,true,some .internalNl,none,none,true,true,0⟩,⟨0,0,false,none,none,none,false,false,0⟩],[⟨0,0,true,none,none,none,true,false,0⟩,⟨0,0,true,none,none,none,false,false,0⟩,⟨0,0,true,some .internalNl,none,none,false,true,0⟩,⟨0,0,true,some .internalNl,none,none,true,true,0⟩,⟨0,0,false,none,none,none,false,false,0⟩],[⟨0,0,true,none,none,none,true,false,0⟩,⟨0,0,true,none,none,none,false,false,0⟩,⟨0,0,true,some .internalNl,none,none,false,true,0⟩,⟨0,0,true,some .internalNl,none,none,true,true,0⟩,⟨0,0,false,none,none,none,false,false,0⟩],[⟨0,0,true,none,none,none,true,false,0⟩,⟨0,0,true,none,none,none,false,false,0⟩,⟨0,0,true,some .internalNl,none,none,false,true,0⟩,⟨0,0,true,some .internalNl,none,none,true,true,0⟩,⟨0,0,false,none,none,none,false,false,0⟩],[⟨0,0,true,none,none,none,true,false,0⟩,⟨0,0,true,none,none,none,false,false,0⟩,⟨0,0,true,some .internalNl,none,none,false,true,0⟩,⟨0,0,true,some .internalNl,none,none,true,true,0⟩,⟨0,0,false,none,none,none,false,false,0⟩],[],[⟨0,0,true,none,none,none,true,false,0⟩,⟨0,0,true,none,none,none,false,false,0⟩,⟨0,0,true,some .internalNl,none,none,false,true,0⟩,⟨0,0,true,some .internalNl,none,none,true,true,0⟩,⟨0,0,false,none,none,none,false,false,0⟩],[⟨0,0,true,none,none,none,true,false,0⟩,⟨0,0,true,none,none,none,false,false,0⟩,⟨0,0,true,some .internalNl,none,none,false,true,0⟩,⟨0,0,true,some .internalNl,none,none,true,true,0⟩,⟨0,0,false,none,none,none,false,false,0⟩],[⟨0,0,true,none,none,none,false,false,0⟩,⟨0,0,true,some .internalNl,none,none,false,true,0⟩,⟨0,0,true,none,none,none,true,false,0⟩,⟨0,0,false,none,none,none,false,false,0⟩,⟨0,0,true,some .internalNl,none,none,true,true,0⟩],[⟨0,0,true,none,none,none,true,false,0⟩],[⟨0,0,false,none,none,none,false,false,0⟩],[⟨0,0,false,none,none,none,false,false,0⟩],[⟨0,0,false,none,none,none,false,false,0⟩],[⟨0,0,false,none,none,none,false,false,0⟩],[⟨0,0,false,none,none,none,false,false,0⟩],[],[⟨0,0,false,none,none,none,false,false,0⟩],[⟨0,0,false,none,none,none,false,false,0⟩],[⟨0,0,true,none,none,none,true,false,0⟩,⟨0,0,true,some .internalNl,none,none,true,true,0⟩],[⟨0,0,true,none,none,none,false,false,0⟩,⟨0,0,true,none,none,none,true,false,0⟩,⟨0,0,true,some .internalNl,none,none,false,true,0⟩,⟨0,0,false,none,none,none,false,false,0⟩,⟨0,0,true,some .internalNl,none,none,true,true,0⟩],[⟨0,0,true,none,none,none,false,false,0⟩,⟨0,0,true,none,none,none,true,false,0⟩,⟨0,0,true,some .internalNl,none,none,false,true,0⟩,⟨0,0,false,none,none,none,false,false,0⟩,⟨0,0,true,some .internalNl,none,none,true,true,0⟩],[⟨0,0,true,none,none,none,false,false,0⟩,⟨0,0,true,none,none,none,true,false,0⟩,⟨0,0,true,some .internalNl,none,none,false,true,0⟩,⟨0,0,false,none,none,none,false,false,0⟩,⟨0,0,true,some .internalNl,none,none,true,true,0⟩],[⟨0,0,true,none,none,none,false,false,0⟩,⟨0,0,true,none,none,none,true,false,0⟩,⟨0,0,true,some .internalNl,none,none,false,true,0⟩,⟨0,0,false,none,none,none,false,false,0⟩,⟨0,0,true,some .internalNl,none,none,true,true,0⟩],[⟨0,0,true,none,none,none,false,false,0⟩,⟨0,0,true,none,none,none,true,false,0⟩,⟨0,0,true,some .internalNl,none,none,false,true,0⟩,⟨0,0,false,none,none,none,false,false,0⟩,⟨0,0,true,some .internalNl,none,none,true,true,0⟩],[⟨0,0,false,none,none,none,false,false,0⟩],[],[⟨0,0,true,none,none,none,false,false,0⟩,⟨0,0,true,none,none,none,true,false,0⟩,⟨0,0,true,some .internalNl,none,none,false,true,0⟩,⟨0,0,false,none,none,none,false,false,0⟩,⟨0,0,true,some .internalNl,none,none,true,true,0⟩],[⟨0,0,true,none,none,none,false,false,0⟩,⟨0,0,true,none,none,none,true,false,0⟩,⟨0,0,true,some .internalNl,none,none,false,true,0⟩,⟨0,0,false,none,none,none,false,false,0⟩,⟨0,0,true,some .internalNl,none,none,true,true,0⟩],[⟨0,0,true,none,none,none,true,false,0⟩,⟨0,0,true,some .internalNl,none,none,true,true,0⟩],[⟨0,0,true,none,none,none,true,false,0⟩,⟨0,0,true,some .internalNl,none,none,true,true,0⟩],[],[⟨0,0,true,none,none,none,true,false,0⟩,⟨0,0,true,some .internalNl,none,none,true,true,0⟩],[⟨0,0,true,none,none,none,true,false,0⟩,⟨0,0,true,some .internalNl,none,none,true,true,0⟩],[⟨0,0,true,none,none,none,true,false,0⟩],[⟨0,0,false,none,none,none,false,false,0⟩],[⟨0,0,false,none,none,none,false,false,0⟩],[⟨0,0,false,none,none,none,false,false,0⟩],[⟨0,0,false,none,none,none,false,false,0⟩],[⟨0,0,false,none,none,none,false,false,0⟩],[],[⟨0,0,false,none,none,none,false,false,0⟩],[⟨0,0,false,none,none,none,false,false,0⟩]]
theorem jsp_line_closed1false : closed emb26_rows jsp_line_tab1false (EA.start jsp_M jsp_line 1) (EA.succ jsp_M jsp_line (1, false)) (EA.eofOk jsp_M jsp_line (1, false)) = true := by
  decide +kernel
def jsp_line_C1false : MCert jsp_M jsp_line (1, false) := ⟨emb26_D, jsp_line_tab1false, jsp_line_closed1false, (fun h => nomatch h)⟩
def jsp_line_tab2false : List (List EA) := [[⟨0,0,true,none,none,none,false,false,0⟩],[⟨0,0,true,none,none,none,true,false,0⟩,⟨0,0,true,some .internalNl,none,none,true,true,0⟩],[⟨0,0,true,none,none,none,false,false,0⟩,⟨0,0,true,none,none,none,true,false,0⟩,⟨0,0,true,some .internalNl,none,none,false,true,0⟩,⟨0,0,true,some .internalNl,none,none,true,true,0⟩],[⟨0,0,true,none,none,none,false,false,0⟩,⟨0,0,true,none,none,none,true,false,0⟩,⟨0,0,true,some .internalNl,none,none,false,true,0⟩,⟨0,0,true,some .internalNl,none,none,true,true,0⟩],[⟨0,0,true,none,none,none,false,false,0⟩,⟨0,0,true,none,none,none,true,false,0⟩,⟨0,0,true,some .internalNl,none,none,false,true,0⟩,⟨0,0,true,some .internalNl,none,none,true,true,0⟩],[⟨0,0,true,none,none,none,false,false,0⟩,⟨0,0,true,none,none,none,true,false,0⟩,⟨0,0,true,some .internalNl,none,none,false,true,0⟩,⟨0,0,true,some .internalNl,none,none,true,true,0⟩],[⟨0,0,true,none,none,none,false,false,0⟩,⟨0,0,true,none,none,none,true,false,0⟩,⟨0,0,true,some .internalNl,none,none,false,true,0⟩,⟨0,0,true,some .internalNl,none,none,true,true,0⟩],[⟨0,0,true,none,none,none,false,false,0⟩,⟨0,0,true,none,none,none,true,false,0⟩,⟨0,0,true,some .internalNl,none,none,false,true,0⟩,⟨0,0,true,some .internalNl,none,none,true,true,0⟩],[⟨0,0,true,none,none,none,false,false,0⟩,⟨0,0,true,none,none,none,true,false,0⟩,⟨0,0,true,some .internalNl,none,none,false,true,0⟩,⟨0,0,true,some .internalNl,none,none,true,true,0⟩],[⟨0,0,true,none,none,none,false,false,0⟩,⟨0,0,true,none,none,none,true,false,0⟩,⟨0,0,true,some .internalNl,none,none,false,true,0⟩,⟨0,0,true,some .internalNl,none,none,true,true,0⟩],[⟨0,0,true,some .internalNl,none,none,false,true,0⟩],[⟨0,0,true,none,none,none,true,false,0⟩,⟨0,0,true,some .internalNl,none,none,true,true,0⟩],[⟨0,0,true,none,none,none,false,false,0⟩,⟨0,0,true,none,none,none,true,false,0⟩,⟨0,0,true,some .internalNl,none,none,false,true,0⟩,⟨0,0,true,some .internalNl,none,none,true,true,0⟩],[⟨0,0,true,none,none,none,false,false,0⟩,⟨0,0,true,none,none,none,true,false,0⟩,⟨0,0,true,some .internalNl,none,none,false,true,0⟩,⟨0,0,true,some .internalNl,none,none,true,true,0⟩],[⟨0,0,true,none,none,none,false,false,0⟩,⟨0,0,true,none,none,none,true,false,0⟩,⟨0,0,true,some .internalNl,none,none,false,true,0⟩,⟨0,0,true,some .internalNl,none,none,true,true,0⟩],[⟨0,0,true,none,none,none,false,false,0⟩,⟨0,0,true,none,none,none,true,false,0⟩,⟨0,0,true,some .internalNl,none,none,false,true,0⟩,⟨0,0,true,some .internalNl,none,none,true,true,0⟩],[⟨0,0,true,none,none,none,false,false,0⟩,⟨0,0,true,none,none,none,true,false,0⟩,⟨0,0,true,some .internalNl,none,none,false,true,0⟩,⟨0,0,true,some .internalNl,none,none,true,true,0⟩],[],[⟨0,0,false,none,none,none,false,false,0⟩],[⟨0,0,true,none,none,none,false,false,0⟩,⟨0,0,true,none,none,none,true,false,0⟩,⟨0,0,true,some .internalNl,none,none,false,true,0⟩,⟨0,0,true,some .internalNl,none,none,true,true,0⟩],[⟨0,0,true,none,none,none,false,false,0⟩,⟨0,0,true,none,none,none,true,false,0⟩,⟨0,0,true,some .internalNl,none,none,false,true,0⟩,⟨0,0,true,some .internalNl,none,none,true,true,0⟩],[⟨0,0,true,none,none,none,true,false,0⟩,⟨0,0,true,some .internalNl,none,none,true,true,0⟩],[⟨0,0,true,none,none,none,true,false,0⟩,⟨0,0,true,some .internalNl,none,none,true,true,0⟩],[⟨0,0,true,none,none,none,true,false,0⟩,⟨0,0,true,none,none,none,false,false,0⟩,⟨0,0,true,some .internalNl,none,none,false,true,0⟩,⟨0,0,true,some .internalNl,none,none,true,true,0⟩,⟨0,0,false,none,none,none,false,false,0⟩],[⟨0,0,true,none,none,none,true,false,0⟩,⟨0,0,true,none,none,none,false,false,0⟩,⟨0,0,true,some .internalNl,none,none,false,true,0⟩,⟨0,0,true,some .internalNl,none,none,true,true,0⟩,⟨0,0,false,none,none,none,false,false,0⟩],[⟨0,0,true,none,none,none,true,false,0⟩,⟨0,0,true,none,none,none,false,false,0⟩,⟨0,0,true,some .internalNl,none,none,false,true,0⟩,⟨0,0,true,some .internalNl,none,none,true,true,0⟩,⟨0,0,false,none,none,none,false,false,0⟩],[⟨0,0,true,none,none,none,true,false,0⟩,⟨0,0,true,none,none,none,false,false,0⟩,⟨0,0,true,some .internalNl,none,none,false,true,0⟩,⟨0,0,true,some .internalNl,none,none,true,true,0⟩,⟨0,0,false,none,none,none,false,false,0⟩],[⟨0,0,true,none,none,none,true,false,0⟩,⟨0,0,true,none,none,none,false,false,0⟩,⟨0,0,true,some .internalNl,none,none,false,true,0⟩,⟨0,0,true,some .internalNl,none,none,true,true,0⟩,⟨0,0,false,none,none,none,false,false,0⟩],[],[⟨0,0,true,none,none,none,true,false,0⟩,⟨0,0,true,none,none,none,false,false,0⟩,⟨0,0,true,some .internalNl,none,none,false,true,0⟩,⟨0,0,true,some .internalNl,none,none,true,true,0⟩,⟨0,0,false,none,none,none,false,false,0⟩],[⟨0,0,true,none,none,none,true,false,0⟩,⟨0,0,true,none,none,none,false,false,0⟩,⟨0,0,true,some .internalNl,none,none,false,true,0⟩,⟨0,0,true,some .internalNl,none,none,true,true,0⟩,⟨0,0,false,none,none,none,false,false,0⟩],[⟨0,0,true,none,none,none,false,false,0⟩,⟨0,0,true,some .internalNl,none,none,false,true,0⟩,⟨0,0,true,none,none,none,true,false,0⟩,⟨0,0,false,none,none,none,false,false,0⟩,⟨0,0,true,some .internalNl,none,none,true,true,0⟩],[⟨0,0,true,none,none,none,true,false,0⟩],[⟨0,0,false,none,none,none,false,false,0⟩],[⟨0,0,false,none,none,none,false,false,0⟩],[⟨0,0,false,none,none,none,false,false,0⟩],[⟨0,0,false,none,none,none,false,false,0⟩],[⟨0,0,false,none,none,none,false,false,0⟩],[],[⟨0,0,false,none,none,none,false,false,0⟩],[⟨0,0,false,none,none,none,false,false,0⟩],[⟨0,0,true,none,none,none,true,false,0⟩,⟨0,0,true,some .internalNl,none,none,true,true,0⟩],[⟨0,0,true,none,none,none,false,false,0⟩,⟨0,0,true,none,none,none,true,false,0⟩,⟨0,0,true,some .internalNl,none,none,false,true,0⟩,⟨0,0,false,none,none,none,false,false,0⟩,⟨0,0,true,some .internalNl,none,none,true,true,0⟩],[⟨0,0,true,none,none,none,false,false,0⟩,⟨0,0,true,none,none,none,true,false,0⟩,⟨0,0,true,some .internalNl,none,none,false,true,0⟩,⟨0,0,false,none,none,none,false,false,0⟩,⟨0,0,true,some .internalNl,none,none,true,true,0⟩],[⟨0,0,true,none,none,none,false,false,0⟩,⟨0,0,true,none,none,none,true,false,0⟩,⟨0,0,true,some .internalNl,none,none,false,true,0⟩,⟨0,0,false,none,none,none,false,false,0⟩,⟨0,0,true,some .internalNl,none,none,true,true,0⟩],[⟨0,0,true,none,none,none,false,false,0⟩,⟨0,0,true,none,none,none,true,false,0⟩,⟨0,0,true,some .internalNl,none,none,false,true,0⟩,⟨0,0,false,none,none,none,false,false,0⟩,⟨0,0,true,some .internalNl,none,none,true,true,0⟩],[⟨0,0,true,none,none,none,false,false,0⟩,⟨0,0,true,none,none,none,true,false,0⟩,⟨0,0,true,some .internalNl,none,none,false,true,0⟩,⟨0,0,false,none,none,none,false,false,0⟩,⟨0,0,true,some .internalNl,none,none,true,true,0⟩],[],[⟨0,0,false,none,none,none,false,false,0⟩],[⟨0,0,true,none,none,none,false,false,0⟩,⟨0,0,true,none,none,none,true,false,0⟩,⟨0,0,true,some .internalNl,none,none,false,true,0⟩,⟨0,0,false,none,none,none,false,false,0⟩,⟨0,0,true,some .internalNl,none,none,true,true,0⟩],[⟨0,0,true,none,none,none,false,false,0⟩,⟨0,0,true,none,none,none,true,false,0⟩,⟨0,0,true,some .internalNl,none,none,false,true,0⟩,⟨0,0,false,none,none,none,false,false,0⟩,⟨0,0,true,some .internalNl,none,none,true,true,0⟩],[⟨0,0,true,none,none,none,true,false,0⟩,⟨0,0,true,some .internalNl,none,none,true,true,0⟩],[⟨0,0,true,none,none,none,true,false,0⟩,⟨0,0,true,some .internalNl,none,none,true,true,0⟩],[],[⟨0,0,true,none,none,none,true,false,0⟩,⟨0,0,true,some .internalNl,none,none,true,true,0⟩],[⟨0,0,true,none,none,none,true,false,0⟩,⟨0,0,true,some .internalNl,none,none,true,true,0⟩],[⟨0,0,true,none,none,none,true,false,0⟩],[⟨0,0,false,none,none,none,false,false,0⟩],[⟨0,0,false,none,none,none,false,false,0⟩],[⟨0,0,false,none,none,none,false,false,0⟩],[⟨0,0,false,none,none,none,false,false,0⟩],[⟨0,0,false,none,none,none,false,false,0⟩],[],[⟨0,0,false,none,none,none,false,false,0⟩],[⟨0,0,false,none,none,none,false,false,0⟩]]
theorem jsp_line_closed2false : closed emb27_rows jsp_line_tab2false (EA.start jsp_M jsp_line 2) (EA.succ jsp_M jsp_line (2, false)) (EA.eofOk jsp_M jsp_line (2, false)) = true := by
  decide +kernel
def jsp_line_C2false : MCert jsp_M jsp_line (2, false) := ⟨emb27_D, jsp_line_tab2false, jsp_line_closed2false, (fun h => nomatch h)⟩
theorem jsp_line_certs : ∀ u ∈ jsp_line.use, Nonempty (MCert jsp_M jsp_line u) :=
  (List.forall_mem_cons.mpr ⟨⟨jsp_line_C6false⟩,
  (List.forall_mem_cons.mpr ⟨⟨jsp_line_C3true⟩,
  (List.forall_mem_cons.mpr ⟨⟨jsp_line_C4true⟩,
  (List.forall_mem_cons.mpr ⟨⟨jsp_line_C5true⟩,
  (List.forall_mem_cons.mpr ⟨⟨jsp_line_C0false⟩,
  (List.forall_mem_cons.mpr ⟨⟨jsp_line_C1false⟩,
  (List.forall_mem_cons.mpr ⟨⟨jsp_line_C2false⟩,
  (fun _ h => nomatch h)⟩)⟩)⟩)⟩)⟩)⟩)⟩)

def jsp_entity : EOpt := ⟨false, false, false, [(10,false),(7,true),(8,true),(9,true)], 4⟩
def jsp_entity_tab10false : List (List EA) := [[⟨0,0,false,none,none,none,false,false,0⟩],[⟨1,0,false,some (.own 0),some 3,none,false,true,0⟩,⟨2,0,false,some (.own 0),some 3,none,false,true,0⟩,⟨3,0,false,some (.own 0),some 3,none,false,true,0⟩],[⟨1,0,false,some (.own 1),some 5,none,false,true,0⟩],[⟨2,0,false,some (.own 1),some 5,none,false,true,0⟩],[⟨2,0,false,some (.own 1),some 5,none,false,true,0⟩],[⟨3,0,false,some (.own 1),some 5,none,false,true,0⟩],[⟨3,0,false,some (.own 1),some 5,none,false,true,0⟩],[⟨3,0,false,some (.own 1),some 5,none,false,true,0⟩],[⟨3,0,false,some (.own 1),some 5,none,false,true,0⟩],[⟨3,0,false,some (.own 1),some 5,none,false,true,0⟩],[⟨3,0,false,some (.own 1),some 5,none,false,true,0⟩],[⟨3,0,false,some (.own 1),some 5,none,false,true,0⟩],[⟨3,0,false,some (.own 1),some 5,none,false,true,0⟩],[⟨3,0,false,some (.own 1),some 5,none,false,true,0⟩],[⟨3,0,false,some (.own 1),some 5,none,false,true,0⟩],[⟨3,0,false,some (.own 1),some 5,none,false,true,0⟩],[⟨3,0,false,some (.own 1),some 5,none,false,true,0⟩],[⟨3,0,false,some (.own 1),some 5,none,false,true,0⟩],[⟨3,0,false,some (.own 1),some 5,none,false,true,0⟩],[⟨3,0,false,some (.own 1),some 5,none,false,true,0⟩],[⟨3,0,false,some (.own 1),some 5,none,false,true,0⟩],[⟨3,0,false,some (.own 1),some 5,none,false,true,0⟩],[⟨3,0,false,some (.own 1),some 5,none,false,true,0⟩],[⟨3,0,false,some (.own 1),some 5,none,false,true,0⟩],[⟨3,0,false,some (.own 1),some 5,none,false,true,0⟩],[⟨3,0,false,some (.own 1),some 5,none,false,true,0⟩],[⟨3,0,false,some (.own 1),some 5,none,false,true,0⟩],[⟨3,0,false,some (.own 1),some 5,none,false,true,0⟩],[⟨3,0,false,some (.own 1),some 5,none,false,true,0⟩],[⟨3,0,false,some (.own 1),some 5,none,false,true,0⟩],[⟨3,0,false,some (.own 1),some 5,none,false,true,0⟩],[⟨3,0,false,some (.own 1),some 5,none,false,true,0⟩],[⟨3,0,false,some (.own 1),some 5,none,false,true,0⟩],[⟨3,0,false,some (.own 1),some 5,none,false,true,0⟩],[⟨3,0,false,some (.own 1),some 5,none,false,true,0⟩],[⟨3,0,false,some (.own 1),some 5,none,false,true,0⟩],[⟨3,0,false,some (.own 1),some 5,none,false,true,0⟩],[⟨3,0,false,some (.own 1),some 5,none,false,true,0⟩],[⟨3,0,false,some (.own 1),some 5,none,false,true,0⟩],[⟨3,0,false,some (.own 1),some 5,none,false,true,0⟩],[⟨3,0,false,some (.own 1),some 5,none,false,true,0⟩],[⟨3,0,false,some (.own 1),some 5,none,false,true,0⟩],[⟨3,0,false,some (.own 1),some 5,none,false,true,0⟩],[⟨3,0,false,some (.own 1),some 5,none,false,true,0⟩],[⟨3,0,false,some (.own 1),some 5,none,false,true,0⟩],[⟨3,0,false,some (.own 1),some 5,none,false,true,0⟩]]
theorem jsp_entity_closed10false : closed emb31_rows jsp_entity_tab10false (EA.start jsp_M jsp_entity 10) (EA.succ jsp_M jsp_entity (10, false)) (EA.eofOk jsp_M jsp_entity (10, false)) = true := by
  decide +kernel
def jsp_entity_C10false : MCert jsp_M jsp_entity (10, false) := ⟨emb31_D, jsp_entity_tab10false, jsp_entity_closed10false, (fun h => nomatch h)⟩
def jsp_entity_tab7true : List (List EA) := [[⟨0,0,false,none,none,none,false,false,0⟩],[⟨1,0,false,some (.own 0),some 1,none,false,true,0⟩,⟨2,0,false,some (.own 0),some 1,none,false,true,0⟩,⟨3,0,false,some (.own 0),some 1,none,false,true,0⟩],[⟨1,0,false,some (.own 1),some 3,none,false,true,0⟩],[⟨1,0,false,none,some 3,none,false,false,0⟩],[⟨2,0,false,some (.own 1),some 3,none,false,true,0⟩],[⟨2,0,false,none,some 3,none,false,false,0⟩],[⟨3,0,false,some (.own 1),some 3,none,false,true,0⟩],[⟨3,0,false,some (.own 1),some 3,none,false,true,0⟩],[⟨3,0,false,none,some 3,none,false,false,0⟩],[⟨3,0,false,none,some 3,none,false,false,0⟩],[⟨3,0,false,none,some 3,none,false,false,0⟩],[⟨3,0,false,none,some 3,none,false,false,0⟩],[⟨3,0,false,none,some 3,none,false,false,0⟩],[⟨3,0,false,none,some 3,none,false,false,0⟩,⟨3,0,true,some .internalNl,some 3,none,false,true,0⟩],[⟨3,0,false,some .internalNl,some 3,none,false,true,0⟩,⟨3,0,true,some .internalNl,some 3,none,false,true,0⟩],[⟨3,0,false,some .internalNl,some 3,none,false,true,0⟩,⟨3,0,true,some .internalNl,some 3,none,false,true,0⟩],[⟨3,0,false,none,some 3,none,false,false,0⟩,⟨3,0,true,some .internalNl,some 3,none,false,true,0⟩],[⟨3,0,false,some .internalNl,some 3,none,false,true,0⟩,⟨3,0,true,some .internalNl,some 3,none,false,true,0⟩],[⟨3,0,false,some .internalNl,some 3,none,false,true,0⟩,⟨3,0,true,some .internalNl,some 3,none,false,true,0⟩],[⟨3,0,true,some .internalNl,some 3,none,false,true,0⟩]]
theorem jsp_entity_closed7true : closed emb3_rows jsp_entity_tab7true (EA.start jsp_M jsp_entity 7) (EA.succ jsp_M jsp_entity (7, true)) (EA.eofOk jsp_M jsp_entity (7, true)) = true := by
  decide +kernel
def jsp_entity_C7true : MCert jsp_M jsp_entity (7, true) := ⟨emb3_D, jsp_entity_tab7true, jsp_entity_closed7true, (fun h => nomatch h)⟩
def jsp_entity_tab8true : List (List EA) := [[⟨0,0,false,none,none,none,false,false,0⟩],[⟨1,0,false,some (.own 0),some 1,none,false,true,0⟩,⟨2,0,false,some (.own 0),some 1,none,false,true,0⟩,⟨3,0,false,some (.own 0),some 1,none,false,true,0⟩],[⟨1,0,false,some (.own 1),some 3,none,false,true,0⟩],[⟨1,0,false,none,some 3,none,false,false,0⟩],[⟨2,0,false,some (.own 1),some 3,none,false,true,0⟩],[⟨2,0,false,some (.own 1),some 2,none,false,true,0⟩],[⟨2,0,false,none,some 3,none,false,false,0⟩],[⟨3,0,false,some (.own 1),some 3,none,false,true,0⟩],[⟨3,0,false,some (.own 1),some 3,none,false,true,0⟩],[⟨3,0,false,some (.own 1),some 2,none,false,true,0⟩],[⟨3,0,false,none,some 3,none,false,false,0⟩],[⟨3,0,false,none,some 3,none,false,false,0⟩],[⟨3,0,false,none,some 3,none,false,false,0⟩],[⟨3,0,false,none,some 3,none,false,false,0⟩],[⟨3,0,false,none,some 3,none,false,false,0⟩],[⟨3,0,false,none,some 3,none,false,false,0⟩],[⟨3,0,false,none,some 3,none,false,false,0⟩,⟨3,0,true,some .internalNl,some 3,none,false,true,0⟩],[⟨3,0,false,some .internalNl,some 3,none,false,true,0⟩,⟨3,0,true,some .internalNl,some 3,none,false,true,0⟩],[⟨3,0,false,some .internalNl,some 3,none,false,true,0⟩,⟨3,0,true,some .internalNl,some 3,none,false,true,0⟩],[⟨3,0,false,none,some 3,none,false,false,0⟩,⟨3,0,true,some .internalNl,some 3,none,false,true,0⟩],[⟨3,0,false,some .internalNl,some 3,none,false,true,0⟩,⟨3,0,true,some .internalNl,some 3,none,false,true,0⟩],[⟨3,0,false,some .internalNl,some 3,none,false,true,0⟩,⟨3,0,true,some .internalNl,some 3,none,false,true,0⟩],[⟨3,0,true,some .internalNl,some 3,none,false,true,0⟩]]
theorem jsp_entity_closed8true : closed emb4_rows jsp_entity_tab8true (EA.start jsp_M jsp_entity 8) (EA.succ jsp_M jsp_entity (8, true)) (EA.eofOk jsp_M jsp_entity (8, true)) = true := by
  decide +kernel
def jsp_entity_C8true : MCert jsp_M jsp_entity (8, true) := ⟨emb4_D, jsp_entity_tab8true, jsp_entity_closed8true, (fun h => nomatch h)⟩
def jsp_entity_tab9true : List (List EA) := [[⟨0,0,false,none,none,none,false,false,0⟩],[⟨1,0,false,some (.own 0),some 1,none,false,true,0⟩,⟨2,0,false,some (.own 0),some 1,none,false,true,0⟩,⟨3,0,false,some (.own 0),some 1,none,false,true,0⟩],[⟨1,0,false,none,some 3,none,false,false,0⟩],[⟨1,0,false,some (.own 1),some 3,none,false,true,0⟩],[⟨2,0,false,some (.own 1),some 3,none,false,true,0⟩],[⟨2,0,false,some (.own 1),some 2,none,false,true,0⟩],[⟨3,0,false,some (.own 1),some 3,none,false,true,0⟩],[⟨3,0,false,some (.own 1),some 3,none,false,true,0⟩],[⟨3,0,false,some (.own 1),some 2,none,false,true,0⟩]]
theorem jsp_entity_closed9true : closed emb30_rows jsp_entity_tab9true (EA.start jsp_M jsp_entity 9) (EA.succ jsp_M jsp_entity (9, true)) (EA.eofOk jsp_M jsp_entity (9, true)) = true := by
  decide +kernel
def jsp_entity_C9true : MCert jsp_M jsp_entity (9, true) := ⟨emb30_D, jsp_entity_tab9true, jsp_entity_closed9true, (fun h => nomatch h)⟩
theorem jsp_entity_certs : ∀ u ∈ jsp_entity.use, Nonempty (MCert jsp_M jsp_entity u) :=
  (List.forall_mem_cons.mpr ⟨⟨jsp_entity_C10false⟩,
  (List.forall_mem_cons.mpr ⟨⟨jsp_entity_C7true⟩,
  (List.forall_mem_cons.mpr ⟨⟨jsp_entity_C8true⟩,
  (List.forall_mem_cons.mpr ⟨⟨jsp_entity_C9true⟩,
  (fun _ h => nomatch h)⟩)⟩)⟩)⟩)

def jsp_entityt : EOpt := ⟨true, true, false, [(10,false),(7,true),(8,true),(9,true)], 4⟩
def jsp_entityt_tab10false : List (List EA) := [[⟨0,0,false,none,none,none,false,false,0⟩],[⟨1,0,false,some (.own 0),some 3,none,false,true,0⟩,⟨2,0,false,some (.own 0),some 3,none,false,true,0⟩,⟨3,0,false,some (.own 0),some 3,none,false,true,0⟩],[⟨1,0,false,some (.own 1),some 5,none,false,true,1⟩],[⟨2,0,false,some (.own 1),some 5,none,false,true,0⟩],[⟨2,0,false,some (.own 1),some 5,none,false,true,0⟩],[⟨3,0,false,some (.own 1),some 5,none,false,true,0⟩],[⟨3,0,false,some (.own 1),some 5,none,false,true,0⟩],[⟨3,0,false,some (.own 1),some 5,none,false,true,0⟩],[⟨3,0,false,some (.own 1),some 5,none,false,true,0⟩],[⟨3,0,false,some (.own 1),some 5,none,false,true,0⟩],[⟨3,0,false,some (.own 1),some 5,none,false,true,0⟩],[⟨3,0,false,some (.own 1),some 5,none,false,true,0⟩],[⟨3,0,false,some (.own 1),some 5,none,false,true,0⟩],[⟨3,0,false,some (.own 1),some 5,none,false,true,0⟩],[⟨3,0,false,some (.own 1),some 5,none,false,true,0⟩],[⟨3,0,false,some (.own 1),some 5,none,false,true,0⟩],[⟨3,0,false,some (.own 1),some 5,none,false,true,0⟩],[⟨3,0,false,some (.own 1),some 5,none,false,true,0⟩],[⟨3,0,false,some (.own 1),some 5,none,false,true,0⟩],[⟨3,0,false,some (.own 1),some 5,none,false,true,0⟩],[⟨3,0,false,some (.own 1),some 5,none,false,true,0⟩],[⟨3,0,false,some (.own 1),some 5,none,false,true,0⟩],[⟨3,0,false,some (.own 1),some 5,none,false,true,0⟩],[⟨3,0,false,some (.own 1),some 5,none,false,true,0⟩],[⟨3,0,false,some (.own 1),some 5,none,false,true,0⟩],[⟨3,0,false,some (.own 1),some 5,none,false,true,0⟩],[⟨3,0,false,some (.own 1),some 5,none,false,true,0⟩],[⟨3,0,false,some (.own 1),some 5,none,false,true,0⟩],[⟨3,0,false,some (.own 1),some 5,none,false,true,0⟩],[⟨3,0,false,some (.own 1),some 5,none,false,true,0⟩],[⟨3,0,false,some (.own 1),some 5,none,false,true,0⟩],[⟨3,0,false,some (.own 1),some 5,none,false,true,0⟩],[⟨3,0,false,some (.own 1),some 5,none,false,true,0⟩],[⟨3,0,false,some (.own 1),some 5,none,false,true,0⟩],[⟨3,0,false,some (.own 1),some 5,none,false,true,0⟩],[⟨3,0,false,some (.own 1),some 5,none,false,true,0⟩],[⟨3,0,false,some (.own 1),some 5,none,false,true,0⟩],[⟨3,0,false,some (.own 1),some 5,none,false,true,0⟩],[⟨3,0,false,some (.own 1),some 5,none,false,true,0⟩],[⟨3,0,false,some (.own 1),some 5,none,false,true,0⟩],[⟨3,0,false,some (.own 1),some 5,none,false,true,0⟩],[⟨3,0,false,some (.own 1),some 5,none,false,true,0⟩],[⟨3,0,false,some (.own 1),some 5,none,false,true,0⟩],[⟨3,0,false,some (.own 1),some 5,none,false,true,0⟩],[⟨3,0,false,some (.own 1),some 5,none,false,true,0⟩],[⟨3,0,false,some (.own 1),some 5,none,false,true,0⟩]]
theorem jsp_entityt_closed10false : closed emb31_rowst jsp_entityt_tab10false (EA.start jsp_M jsp_entityt 10) (EA.succ jsp_M jsp_entityt (10, false)) (EA.eofOk jsp_M jsp_entityt (10, false)) = true := by
  decide +kernel
def jsp_entityt_C10false : MCert jsp_M jsp_entityt (10, false) := ⟨emb31_Dt, jsp_entityt_tab10false, jsp_entityt_closed10false, (fun _ => ⟨by decide +kernel, by decide +kernel, by decide +kernel⟩)⟩
def jsp_entityt_tab7true : List (List EA) := [[⟨0,0,false,none,none,none,false,false,0⟩],[⟨1,0,false,some (.own 0),some 1,none,false,true,0⟩,⟨2,0,false,some (.own 0),some 1,none,false,true,0⟩,⟨3,0,false,some (.own 0),some 1,none,false,true,0⟩],[⟨1,0,false,some (.own 1),some 3,none,false,true,0⟩],[⟨1,0,false,none,some 3,none,false,false,1⟩],[⟨2,0,false,some (.own 1),some 3,none,false,true,0⟩],[⟨2,0,false,none,some 3,none,false,false,2⟩],[⟨3,0,false,some (.own 1),some 3,none,false,true,0⟩],[⟨3,0,false,some (.own 1),some 3,none,false,true,0⟩],[⟨3,0,false,none,some 3,none,false,false,2⟩],[⟨3,0,false,none,some 3,none,false,false,2⟩],[⟨3,0,false,none,some 3,none,false,false,2⟩],[⟨3,0,false,none,some 3,none,false,false,2⟩],[⟨3,0,false,none,some 3,none,false,false,2⟩],[⟨3,0,false,none,some 3,none,false,false,2⟩],[],[],[],[],[],[]]
theorem jsp_entityt_closed7true : closed emb3_rowst jsp_entityt_tab7true (EA.start jsp_M jsp_entityt 7) (EA.succ jsp_M jsp_entityt (7, true)) (EA.eofOk jsp_M jsp_entityt (7, true)) = true := by
  decide +kernel
def jsp_entityt_C7true : MCert jsp_M jsp_entityt (7, true) := ⟨emb3_Dt, jsp_entityt_tab7true, jsp_entityt_closed7true, (fun _ => ⟨by decide +kernel, by decide +kernel, by decide +kernel⟩)⟩
def jsp_entityt_tab8true : List (List EA) := [[⟨0,0,false,none,none,none,false,false,0⟩],[⟨1,0,false,some (.own 0),some 1,none,false,true,0⟩,⟨2,0,false,some (.own 0),some 1,none,false,true,0⟩,⟨3,0,false,some (.own 0),some 1,none,false,true,0⟩],[⟨1,0,false,some (.own 1),some 3,none,false,true,0⟩],[⟨1,0,false,none,some 3,none,false,false,1⟩],[⟨2,0,false,some (.own 1),some 3,none,false,true,0⟩],[⟨2,0,false,some (.own 1),some 2,none,false,true,0⟩],[⟨2,0,false,none,some 3,none,false,false,2⟩],[⟨3,0,false,some (.own 1),some 3,none,false,true,0⟩],[⟨3,0,false,some (.own 1),some 3,none,false,true,0⟩],[⟨3,0,false,some (.own 1),some 2,none,false,true,0⟩],[⟨3,0,false,none,some 3,none,false,false,2⟩],[⟨3,0,false,none,some 3,none,false,false,2⟩],[⟨3,0,false,none,some 3,none,false,false,2⟩],[⟨3,0,false,none,some 3,none,false,false,2⟩],[⟨3,0,false,none,some 3,none,false,false,2⟩],[⟨3,0,false,none,some 3,none,false,false,2⟩],[⟨3,0,false,none,some 3,none,false,false,2⟩],[],[],[],[],[],[]]
theorem jsp_entityt_closed8true : closed emb4_rowst jsp_entityt_tab8true (EA.start jsp_M jsp_entityt 8) (EA.succ jsp_M jsp_entityt (8, true)) (EA.eofOk jsp_M jsp_entityt (8, true)) = true := by
  decide +kernel
def jsp_entityt_C8true : MCert jsp_M jsp_entityt (8, true) := ⟨emb4_Dt, jsp_entityt_tab8true, jsp_entityt_closed8true, (fun _ => ⟨by decide +kernel, by decide +kernel, by decide +kernel⟩)⟩
def jsp_entityt_tab9true : List (List EA) := [[⟨0,0,false,none,none,none,false,false,0⟩],[⟨1,0,false,some (.own 0),some 1,none,false,true,0⟩,⟨2,0,false,some (.own 0),some 1,none,false,true,0⟩,⟨3,0,false,some (.own 0),some 1,none,false,true,0⟩],[⟨1,0,false,none,some 3,none,false,false,0⟩],[⟨1,0,false,some (.own 1),some 3,none,false,true,0⟩],[⟨2,0,false,some (.own 1),some 3,none,false,true,0⟩],[⟨2,0,false,some (.own 1),some 2,none,false,true,0⟩],[⟨3,0,false,some (.own 1),some 3,none,false,true,0⟩],[⟨3,0,false,some (.own 1),some 3,none,false,true,0⟩],[⟨3,0,false,some (.own 1),some 2,none,false,true,0⟩]]
theorem jsp_entityt_closed9true : closed emb30_rowst jsp_entityt_tab9true (EA.start jsp_M jsp_entityt 9) (EA.succ jsp_M jsp_entityt (9, true)) (EA.eofOk jsp_M jsp_entityt (9, true)) = true := by
  decide +kernel
def jsp_entityt_C9true : MCert jsp_M jsp_entityt (9, true) := ⟨emb30_Dt, jsp_entityt_tab9true, jsp_entityt_closed9true, (fun _ => ⟨by decide +kernel, by decide +kernel, by decide +kernel⟩)⟩
theorem jsp_entityt_certs : ∀ u ∈ jsp_entityt.use, Nonempty (MCert jsp_M jsp_entityt u) :=
  (List.forall_mem_cons.mpr ⟨⟨jsp_entityt_C10false⟩,
  (List.forall_mem_cons.mpr ⟨⟨jsp_entityt_C7true⟩,
  (List.forall_mem_cons.mpr ⟨⟨jsp_entityt_C8true⟩,
  (List.forall_mem_cons.mpr ⟨⟨jsp_entityt_C9true⟩,
  (fun _ h => nomatch h)⟩)⟩)⟩)⟩)

end Ohcount.Cert
