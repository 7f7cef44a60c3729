import Verif.Cert.EN1
import Verif.Cert.EN2
import Verif.Cert.EN3
import Verif.Cert.EN4
import Verif.EmbedSafe

/-! Generated by tools/gen_embcerts.py. -/

namespace Ohcount.Cert
open Ohcount.Ragel Ohcount.Gram

set_option maxRecDepth 100000

theorem html_m0 : Emb.Html.html_css_line.mach = ⟨emb0_nfa, [.none,.cb 1,.none,.none,.cb 1,.cb 1], true⟩ := by decide +kernel
theorem html_m1 : Emb.Html.html_js_line.mach = ⟨emb1_nfa, [.none,.cb 2,.none,.none,.cb 2,.cb 2], true⟩ := by decide +kernel
theorem html_m2 : Emb.Html.html_line.mach = ⟨emb2_nfa, [.call 0,.call 1,.cb 0,.none,.none,.cb 0,.cb 0], true⟩ := by decide +kernel
theorem html_m3 : Emb.Html.html_css_entity.mach = ⟨emb3_nfa, [.none,.ecb 1,.ecb 1,.none], true⟩ := by decide +kernel
theorem html_m4 : Emb.Html.html_js_entity.mach = ⟨emb4_nfa, [.none,.ecb 2,.ecb 2,.none], true⟩ := by decide +kernel
theorem html_m5 : Emb.Html.html_entity.mach = ⟨emb5_nfa, [.call 3,.call 4,.ecb 0,.ecb 0,.none], true⟩ := by decide +kernel

/-- The machines of `Emb.Html.parser`, with their automata as literals. -/
def html_M : Multi := ⟨Emb.Html.parser.sws, [
  ⟨emb0_nfa, [.none,.cb 1,.none,.none,.cb 1,.cb 1], true⟩,
  ⟨emb1_nfa, [.none,.cb 2,.none,.none,.cb 2,.cb 2], true⟩,
  ⟨emb2_nfa, [.call 0,.call 1,.cb 0,.none,.none,.cb 0,.cb 0], true⟩,
  ⟨emb3_nfa, [.none,.ecb 1,.ecb 1,.none], true⟩,
  ⟨emb4_nfa, [.none,.ecb 2,.ecb 2,.none], true⟩,
  ⟨emb5_nfa, [.call 3,.call 4,.ecb 0,.ecb 0,.none], true⟩]⟩
theorem html_M_eq : Emb.Html.parser.multi = html_M := by
  show Multi.mk _ [Emb.Html.html_css_line.mach, Emb.Html.html_js_line.mach, Emb.Html.html_line.mach, Emb.Html.html_css_entity.mach, Emb.Html.html_js_entity.mach, Emb.Html.html_entity.mach] = _
  rw [html_m0, html_m1, html_m2, html_m3, html_m4, html_m5]; rfl

def html_line : EOpt := ⟨false, false, false, [(2,false),(0,true),(1,true)], 3⟩
def html_line_tab2false : List (List EA) := [[⟨0,0,false,none,none,none,false,false,0⟩],[⟨1,0,false,some (.own 0),some 2,none,false,true,0⟩,⟨2,0,false,some (.own 0),some 2,none,false,true,0⟩,⟨3,0,false,some (.own 0),some 2,none,false,true,0⟩],[⟨1,0,false,some .newline,none,none,false,false,0⟩],[⟨1,0,false,some .newline,some 5,none,false,false,0⟩],[⟨1,0,false,some (.own 5),some 6,none,false,true,0⟩],[⟨1,0,false,some (.own 5),some 6,none,false,true,0⟩],[⟨1,0,false,some (.own 5),some 6,none,false,true,0⟩],[⟨2,0,false,some (.own 5),some 6,none,false,true,0⟩,⟨3,0,false,some (.own 5),some 6,none,false,true,0⟩],[⟨2,0,false,some (.own 5),some 6,none,false,true,0⟩,⟨3,0,false,some (.own 5),some 6,none,false,true,0⟩],[⟨2,0,false,some (.own 5),some 6,none,false,true,0⟩,⟨3,0,false,some (.own 5),some 6,none,false,true,0⟩],[⟨2,0,false,some (.own 5),some 6,none,false,true,0⟩,⟨3,0,false,some (.own 5),some 6,none,false,true,0⟩],[⟨2,0,false,some (.own 5),some 6,none,false,true,0⟩],[⟨2,0,false,some (.own 5),some 6,none,false,true,0⟩],[⟨3,0,false,some (.own 5),some 6,none,false,true,0⟩],[⟨3,0,false,some (.own 5),some 6,none,false,true,0⟩],[⟨3,0,false,some (.own 5),some 6,none,false,true,0⟩],[⟨3,0,false,some (.own 5),some 6,none,false,true,0⟩],[⟨3,0,false,some (.own 5),some 6,none,false,true,0⟩],[⟨3,0,true,some (.own 5),some 6,none,false,true,0⟩],[⟨3,0,false,some (.own 5),some 6,none,false,true,0⟩],[⟨3,0,false,some (.own 5),some 6,none,false,true,0⟩],[⟨3,0,true,some (.own 5),some 6,none,false,true,0⟩,⟨3,0,true,some .internalNl,some 6,none,false,true,0⟩],[⟨3,0,true,some (.own 5),some 6,none,false,true,0⟩,⟨3,0,true,some .internalNl,some 6,none,false,true,0⟩],[⟨3,0,true,some (.own 5),some 6,none,false,true,0⟩,⟨3,0,true,some .internalNl,some 6,none,false,true,0⟩],[⟨3,0,true,some (.own 5),some 6,none,false,true,0⟩,⟨3,0,true,some .internalNl,some 6,none,false,true,0⟩],[⟨3,0,true,some (.own 5),some 6,none,false,true,0⟩,⟨3,0,true,some .internalNl,some 6,none,false,true,0⟩],[⟨3,0,true,some (.own 5),some 6,none,false,true,0⟩,⟨3,0,true,some .internalNl,some 6,none,false,true,0⟩],[⟨3,0,true,some (.own 5),some 6,none,false,true,0⟩,⟨3,0,true,some .internalNl,some 6,none,false,true,0⟩],[⟨3,0,false,some (.own 5),some 6,none,false,true,0⟩],[⟨3,0,false,some (.own 5),some 6,none,false,true,0⟩],[⟨3,0,true,some (.own 5),some 6,none,false,true,0⟩,⟨3,0,true,some .internalNl,some 6,none,false,true,0⟩],[⟨3,0,true,some .internalNl,some 6,none,false,true,0⟩],[⟨3,0,true,some (.own 5),some 6,none,false,true,0⟩,⟨3,0,true,some .internalNl,some 6,none,false,true,0⟩],[⟨3,0,false,some (.own 5),some 6,none,false,true,0⟩],[⟨3,0,false,some (.own 5),some 6,none,false,true,0⟩],[⟨3,0,false,some (.own 5),some 6,none,false,true,0⟩],[⟨3,0,false,some (.own 5),some 6,none,false,true,0⟩],[⟨3,0,false,some (.own 5),some 6,none,false,true,0⟩],[⟨3,0,false,some (.own 5),some 6,none,false,true,0⟩],[⟨3,0,false,some (.own 5),some 6,none,false,true,0⟩],[⟨3,0,false,some (.own 5),some 6,none,false,true,0⟩],[⟨3,0,false,some (.own 5),some 6,none,false,true,0⟩],[⟨3,0,false,some (.own 5),some 6,none,false,true,0⟩],[⟨3,0,false,some (.own 5),some 6,none,false,true,0⟩],[⟨3,0,false,some (.own 5),some 6,none,false,true,0⟩],[⟨3,0,false,some (.own 5),some 6,none,false,true,0⟩],[⟨3,0,false,some (.own 5),some 6,none,false,true,0⟩],[⟨3,0,false,some (.own 5),some 6,none,false,true,0⟩],[⟨3,0,false,some (.own 5),some 6,none,false,true,0⟩],[⟨3,0,false,some (.own 5),some 6,none,false,true,0⟩],[⟨3,0,false,some (.own 5),some 6,none,false,true,0⟩],[⟨3,0,false,some (.own 5),some 6,none,false,true,0⟩],[⟨3,0,false,some (.own 5),some 6,none,false,true,0⟩],[⟨3,0,false,some (.own 5),some 6,none,false,true,0⟩],[⟨3,0,false,some (.own 5),some 6,none,false,true,0⟩],[⟨3,0,false,some (.own 5),some 6,none,false,true,0⟩],[⟨3,0,false,some (.own 5),some 6,none,false,true,0⟩],[⟨3,0,false,some (.own 5),some 6,none,false,true,0⟩],[⟨3,0,false,some (.own 5),some 6,none,false,true,0⟩],[⟨3,0,false,some (.own 5),some 6,none,false,true,0⟩],[⟨3,0,false,some (.own 5),some 6,none,false,true,0⟩],[⟨3,0,false,some (.own 5),some 6,none,false,true,0⟩],[⟨3,0,false,some (.own 5),some 6,none,false,true,0⟩]]
theorem html_line_closed2false : closed emb2_rows html_line_tab2false (EA.start html_M html_line 2) (EA.succ html_M html_line (2, false)) (EA.eofOk html_M html_line (2, false)) = true := by
  decide +kernel
def html_line_C2false : MCert html_M html_line (2, false) := ⟨emb2_D, html_line_tab2false, html_line_closed2false, (fun h => nomatch h)⟩
def html_line_tab0true : List (List EA) := [[⟨0,0,false,none,none,none,false,false,0⟩],[⟨1,0,false,some (.own 0),some 1,none,false,true,0⟩,⟨2,0,false,some (.own 0),some 1,none,false,true,0⟩,⟨3,0,false,some (.own 0),some 1,none,false,true,0⟩],[⟨1,0,false,some .newline,none,none,false,false,0⟩],[⟨1,0,false,some .newline,some 4,none,false,false,0⟩],[⟨1,0,true,some (.own 9),some 5,none,true,true,0⟩],[⟨1,0,true,some (.own 9),some 5,none,true,true,0⟩],[⟨1,0,false,some (.own 9),some 5,none,false,true,0⟩],[⟨1,0,false,some (.own 9),some 5,none,false,true,0⟩],[⟨2,0,true,some (.own 9),some 5,none,true,true,0⟩,⟨3,0,true,some (.own 9),some 5,none,true,true,0⟩,⟨3,0,true,some .internalNl,some 5,none,true,true,0⟩],[⟨2,0,true,some (.own 9),some 5,none,true,true,0⟩,⟨3,0,true,some (.own 9),some 5,none,true,true,0⟩,⟨3,0,true,some .internalNl,some 5,none,false,true,0⟩,⟨3,0,true,some .internalNl,some 5,none,true,true,0⟩],[⟨2,0,true,some (.own 9),some 5,none,true,true,0⟩,⟨3,0,true,some (.own 9),some 5,none,true,true,0⟩,⟨3,0,true,some .internalNl,some 5,none,false,true,0⟩,⟨3,0,true,some .internalNl,some 5,none,true,true,0⟩],[⟨2,0,true,some (.own 9),some 5,none,true,true,0⟩,⟨3,0,true,some (.own 9),some 5,none,true,true,0⟩,⟨3,0,true,some .internalNl,some 5,none,false,true,0⟩,⟨3,0,true,some .internalNl,some 5,none,true,true,0⟩],[⟨2,0,true,some (.own 9),some 5,none,true,true,0⟩,⟨3,0,true,some (.own 9),some 5,none,true,true,0⟩,⟨3,0,true,some .internalNl,some 5,none,false,true,0⟩,⟨3,0,true,some .internalNl,some 5,none,true,true,0⟩],[⟨2,0,true,some (.own 9),some 5,none,true,true,0⟩,⟨3,0,true,some (.own 9),some 5,none,true,true,0⟩,⟨3,0,true,some .internalNl,some 5,none,false,true,0⟩,⟨3,0,true,some .internalNl,some 5,none,true,true,0⟩],[⟨2,0,true,some (.own 9),some 5,none,true,true,0⟩,⟨3,0,true,some (.own 9),some 5,none,true,true,0⟩,⟨3,0,true,some .internalNl,some 5,none,false,true,0⟩,⟨3,0,true,some .internalNl,some 5,none,true,true,0⟩],[⟨2,0,true,some (.own 9),some 5,none,true,true,0⟩,⟨3,0,true,some (.own 9),some 5,none,true,true,0⟩,⟨3,0,true,some .internalNl,some 5,none,true,true,0⟩],[⟨2,0,true,some (.own 9),some 5,none,true,true,0⟩,⟨3,0,true,some (.own 9),some 5,none,true,true,0⟩,⟨3,0,true,some .internalNl,some 5,none,false,true,0⟩,⟨3,0,true,some .internalNl,some 5,none,true,true,0⟩],[⟨2,0,true,some (.own 9),some 5,none,true,true,0⟩,⟨3,0,true,some (.own 9),some 5,none,true,true,0⟩,⟨3,0,true,some .internalNl,some 5,none,false,true,0⟩,⟨3,0,true,some .internalNl,some 5,none,true,true,0⟩],[⟨2,0,true,some (.own 9),some 5,none,true,true,0⟩,⟨3,0,true,some (.own 9),some 5,none,true,true,0⟩,⟨3,0,true,some .internalNl,some 5,none,false,true,0⟩,⟨3,0,true,some .internalNl,some 5,none,true,true,0⟩],[⟨2,0,true,some (.own 9),some 5,none,true,true,0⟩,⟨3,0,true,some (.own 9),some 5,none,true,true,0⟩,⟨3,0,true,some .internalNl,some 5,none,false,true,0⟩,⟨3,0,true,some .internalNl,some 5,none,true,true,0⟩],[⟨2,0,true,some (.own 9),some 5,none,true,true,0⟩,⟨3,0,true,some (.own 9),some 5,none,true,true,0⟩,⟨3,0,true,some .internalNl,some 5,none,false,true,0⟩,⟨3,0,true,some .internalNl,some 5,none,true,true,0⟩],[⟨2,0,true,some (.own 9),some 5,none,true,true,0⟩,⟨3,0,true,some (.own 9),some 5,none,true,true,0⟩,⟨3,0,true,some .internalNl,some 5,none,false,true,0⟩,⟨3,0,true,some .internalNl,some 5,none,true,true,0⟩],[⟨2,0,true,some (.own 9),some 5,none,false,true,0⟩],[⟨2,0,false,some (.own 9),some 5,none,false,true,0⟩],[⟨3,0,true,some (.own 9),some 5,none,true,true,0⟩,⟨3,0,true,some .internalNl,some 5,none,false,true,0⟩,⟨3,0,true,some .internalNl,some 5,none,true,true,0⟩],[⟨3,0,true,some .internalNl,some 5,none,false,true,0⟩],[⟨3,0,true,some (.own 9),some 5,none,true,true,0⟩,⟨3,0,true,some .internalNl,some 5,none,true,true,0⟩],[⟨3,0,true,some (.own 9),some 5,none,true,true,0⟩,⟨3,0,true,some .internalNl,some 5,none,false,true,0⟩,⟨3,0,true,some .internalNl,some 5,none,true,true,0⟩],[⟨3,0,true,some .internalNl,some 5,none,false,true,0⟩],[⟨3,0,true,some (.own 9),some 5,none,true,true,0⟩,⟨3,0,true,some .internalNl,some 5,none,true,true,0⟩],[⟨3,0,true,some (.own 9),some 5,none,false,true,0⟩,⟨3,0,true,some .internalNl,some 5,none,false,true,0⟩],[⟨3,0,true,some (.own 9),some 5,none,false,true,0⟩,⟨3,0,true,some .internalNl,some 5,none,false,true,0⟩],[⟨3,0,true,some (.own 9),some 5,none,false,true,0⟩,⟨3,0,true,some .internalNl,some 5,none,false,true,0⟩],[⟨3,0,true,some (.own 9),some 5,none,false,true,0⟩,⟨3,0,true,some .internalNl,some 5,none,false,true,0⟩],[⟨3,0,true,some (.own 9),some 5,none,false,true,0⟩,⟨3,0,true,some .internalNl,some 5,none,false,true,0⟩],[⟨3,0,true,some (.own 9),some 5,none,false,true,0⟩,⟨3,0,true,some .internalNl,some 5,none,false,true,0⟩],[⟨3,0,true,some (.own 9),some 5,none,false,true,0⟩,⟨3,0,true,some .internalNl,some 5,none,false,true,0⟩],[⟨3,0,false,some (.own 9),some 5,none,false,true,0⟩],[⟨3,0,true,some (.own 9),some 5,none,false,true,0⟩,⟨3,0,true,some .internalNl,some 5,none,false,true,0⟩],[⟨3,0,true,some .internalNl,some 5,none,false,true,0⟩],[⟨3,0,false,some (.own 9),some 5,none,false,true,0⟩],[⟨3,0,false,some (.own 9),some 5,none,false,true,0⟩],[⟨3,0,false,some (.own 9),some 5,none,false,true,0⟩],[⟨3,0,false,some (.own 9),some 5,none,false,true,0⟩],[⟨3,0,false,some (.own 9),some 5,none,false,true,0⟩,⟨3,0,true,some .internalNl,some 5,none,false,true,0⟩],[⟨3,0,false,some .internalNl,some 5,none,false,true,0⟩,⟨3,0,true,some .internalNl,some 5,none,false,true,0⟩],[⟨3,0,false,some .internalNl,some 5,none,false,true,0⟩,⟨3,0,true,some .internalNl,some 5,none,false,true,0⟩],[⟨3,0,false,some (.own 9),some 5,none,false,true,0⟩,⟨3,0,true,some .internalNl,some 5,none,false,true,0⟩],[⟨3,0,false,some .internalNl,some 5,none,false,true,0⟩,⟨3,0,true,some .internalNl,some 5,none,false,true,0⟩],[⟨3,0,false,some .internalNl,some 5,none,false,true,0⟩,⟨3,0,true,some .internalNl,some 5,none,false,true,0⟩],[⟨3,0,true,some .internalNl,some 5,none,false,true,0⟩]]
theorem html_line_closed0true : closed emb0_rows html_line_tab0true (EA.start html_M html_line 0) (EA.succ html_M html_line (0, true)) (EA.eofOk html_M html_line (0, true)) = true := by
  decide +kernel
def html_line_C0true : MCert html_M html_line (0, true) := ⟨emb0_D, html_line_tab0true, html_line_closed0true, (fun h => nomatch h)⟩
def html_line_tab1true : List (List EA) := [[⟨0,0,false,none,none,none,false,false,0⟩],[⟨1,0,false,some (.own 0),some 1,none,false,true,0⟩,⟨2,0,false,some (.own 0),some 1,none,false,true,0⟩,⟨3,0,false,some (.own 0),some 1,none,false,true,0⟩],[⟨1,0,false,some .newline,none,none,false,false,0⟩],[⟨1,0,false,some .newline,some 4,none,false,false,0⟩],[⟨1,0,true,some (.own 7),some 5,none,true,true,0⟩],[⟨1,0,true,some (.own 7),some 5,none,true,true,0⟩],[⟨1,0,false,some (.own 7),some 5,none,false,true,0⟩],[⟨1,0,false,some (.own 7),some 5,none,false,true,0⟩],[⟨2,0,true,some (.own 7),some 5,none,true,true,0⟩,⟨3,0,true,some (.own 7),some 5,none,true,true,0⟩,⟨3,0,true,some .internalNl,some 5,none,true,true,0⟩],[⟨2,0,true,some (.own 7),some 5,none,true,true,0⟩,⟨3,0,true,some (.own 7),some 5,none,true,true,0⟩,⟨3,0,true,some .internalNl,some 5,none,false,true,0⟩,⟨3,0,true,some .internalNl,some 5,none,true,true,0⟩],[⟨2,0,true,some (.own 7),some 5,none,true,true,0⟩,⟨3,0,true,some (.own 7),some 5,none,true,true,0⟩,⟨3,0,true,some .internalNl,some 5,none,false,true,0⟩,⟨3,0,true,some .internalNl,some 5,none,true,true,0⟩],[⟨2,0,true,some (.own 7),some 5,none,true,true,0⟩,⟨3,0,true,some (.own 7),some 5,none,true,true,0⟩,⟨3,0,true,some .internalNl,some 5,none,true,true,0⟩],[⟨2,0,true,some (.own 7),some 5,none,true,true,0⟩,⟨3,0,true,some (.own 7),some 5,none,true,true,0⟩,⟨3,0,true,some .internalNl,some 5,none,false,true,0⟩,⟨3,0,true,some .internalNl,some 5,none,true,true,0⟩],[⟨2,0,true,some (.own 7),some 5,none,true,true,0⟩,⟨3,0,true,some (.own 7),some 5,none,true,true,0⟩,⟨3,0,true,some .internalNl,some 5,none,false,true,0⟩,⟨3,0,true,some .internalNl,some 5,none,true,true,0⟩],[⟨2,0,false,some (.own 7),some 5,none,false,true,0⟩],[⟨2,0,true,some (.own 7),some 5,none,false,true,0⟩],[⟨2,0,true,some (.own 7),some 2,none,false,true,0⟩],[⟨2,0,false,some (.own 7),some 5,none,false,true,0⟩],[⟨3,0,true,some (.own 7),some 5,none,true,true,0⟩,⟨3,0,true,some .internalNl,some 5,none,true,true,0⟩],[⟨3,0,true,some (.own 7),some 5,none,true,true,0⟩,⟨3,0,true,some .internalNl,some 5,none,false,true,0⟩,⟨3,0,true,some .internalNl,some 5,none,true,true,0⟩],[⟨3,0,true,some (.own 7),some 5,none,true,true,0⟩,⟨3,0,true,some .internalNl,some 5,none,false,true,0⟩,⟨3,0,true,some .internalNl,some 5,none,true,true,0⟩],[⟨3,0,true,some (.own 7),some 5,none,true,true,0⟩,⟨3,0,true,some .internalNl,some 5,none,false,true,0⟩,⟨3,0,true,some .internalNl,some 5,none,true,true,0⟩],[⟨3,0,true,some (.own 7),some 5,none,true,true,0⟩,⟨3,0,true,some .internalNl,some 5,none,false,true,0⟩,⟨3,0,true,some .internalNl,some 5,none,true,true,0⟩],[⟨3,0,true,some (.own 7),some 5,none,true,true,0⟩,⟨3,0,true,some .internalNl,some 5,none,true,true,0⟩],[⟨3,0,true,some (.own 7),some 5,none,true,true,0⟩,⟨3,0,true,some .internalNl,some 5,none,false,true,0⟩,⟨3,0,true,some .internalNl,some 5,none,true,true,0⟩],[⟨3,0,true,some (.own 7),some 5,none,true,true,0⟩,⟨3,0,true,some .internalNl,some 5,none,false,true,0⟩,⟨3,0,true,some .internalNl,some 5,none,true,true,0⟩],[⟨3,0,true,some (.own 7),some 5,none,true,true,0⟩,⟨3,0,true,some .internalNl,some 5,none,false,true,0⟩,⟨3,0,true,some .internalNl,some 5,none,true,true,0⟩],[⟨3,0,true,some (.own 7),some 5,none,true,true,0⟩,⟨3,0,true,some .internalNl,some 5,none,false,true,0⟩,⟨3,0,true,some .internalNl,some 5,none,true,true,0⟩],[⟨3,0,false,some (.own 7),some 5,none,false,true,0⟩],[⟨3,0,false,some (.own 7),some 5,none,false,true,0⟩],[⟨3,0,true,some (.own 7),some 5,none,false,true,0⟩,⟨3,0,true,some .internalNl,some 5,none,false,true,0⟩],[⟨3,0,true,some (.own 7),some 5,none,false,true,0⟩,⟨3,0,true,some .internalNl,some 5,none,false,true,0⟩],[⟨3,0,true,some (.own 7),some 5,none,false,true,0⟩,⟨3,0,true,some .internalNl,some 5,none,false,true,0⟩],[⟨3,0,true,some (.own 7),some 5,none,false,true,0⟩,⟨3,0,true,some .internalNl,some 5,none,false,true,0⟩],[⟨3,0,true,some (.own 7),some 5,none,false,true,0⟩,⟨3,0,true,some .internalNl,some 5,none,false,true,0⟩],[⟨3,0,true,some (.own 7),some 5,none,false,true,0⟩,⟨3,0,true,some .internalNl,some 5,none,false,true,0⟩],[⟨3,0,true,some (.own 7),some 5,none,false,true,0⟩,⟨3,0,true,some .internalNl,some 5,none,false,true,0⟩],[⟨3,0,true,some (.own 7),some 2,none,false,true,0⟩],[⟨3,0,false,some (.own 7),some 5,none,false,true,0⟩],[⟨3,0,true,some (.own 7),some 5,none,true,true,0⟩,⟨3,0,true,some .internalNl,some 5,none,false,true,0⟩,⟨3,0,true,some .internalNl,some 5,none,true,true,0⟩],[⟨3,0,true,some .internalNl,some 5,none,true,true,0⟩],[⟨3,0,true,some (.own 7),some 5,none,true,true,0⟩,⟨3,0,true,some .internalNl,some 5,none,false,true,0⟩,⟨3,0,true,some .internalNl,some 5,none,true,true,0⟩],[⟨3,0,true,some .internalNl,some 5,none,true,true,0⟩],[⟨3,0,false,some (.own 7),some 5,none,false,true,0⟩],[⟨3,0,true,some (.own 7),some 5,none,false,true,0⟩,⟨3,0,true,some .internalNl,some 5,none,false,true,0⟩],[⟨3,0,true,some .internalNl,some 5,none,false,true,0⟩],[⟨3,0,false,some (.own 7),some 5,none,false,true,0⟩],[⟨3,0,false,some (.own 7),some 5,none,false,true,0⟩],[⟨3,0,false,some (.own 7),some 5,none,false,true,0⟩],[⟨3,0,false,some (.own 7),some 5,none,false,true,0⟩],[⟨3,0,false,some (.own 7),some 5,none,false,true,0⟩],[⟨3,0,false,some (.own 7),some 5,none,false,true,0⟩,⟨3,0,true,some .internalNl,some 5,none,false,true,0⟩],[⟨3,0,false,some .internalNl,some 5,none,false,true,0⟩,⟨3,0,true,some .internalNl,some 5,none,false,true,0⟩],[⟨3,0,false,some .internalNl,some 5,none,false,true,0⟩,⟨3,0,true,some .internalNl,some 5,none,false,true,0⟩],[⟨3,0,false,some (.own 7),some 5,none,false,true,0⟩,⟨3,0,true,some .internalNl,some 5,none,false,true,0⟩],[⟨3,0,false,some .internalNl,some 5,none,false,true,0⟩,⟨3,0,true,some .internalNl,some 5,none,false,true,0⟩],[⟨3,0,false,some .internalNl,some 5,none,false,true,0⟩,⟨3,0,true,some .internalNl,some 5,none,false,true,0⟩],[⟨3,0,true,some .internalNl,some 5,none,false,true,0⟩]]
theorem html_line_closed1true : closed emb1_rows html_line_tab1true (EA.start html_M html_line 1) (EA.succ html_M html_line (1, true)) (EA.eofOk html_M html_line (1, true)) = true := by
  decide +kernel
def html_line_C1true : MCert html_M html_line (1, true) := ⟨emb1_D, html_line_tab1true, html_line_closed1true, (fun h => nomatch h)⟩
theorem html_line_certs : ∀ u ∈ html_line.use, Nonempty (MCert html_M html_line u) :=
  (List.forall_mem_cons.mpr ⟨⟨html_line_C2false⟩,
  (List.forall_mem_cons.mpr ⟨⟨html_line_C0true⟩,
  (List.forall_mem_cons.mpr ⟨⟨html_line_C1true⟩,
  (fun _ h => nomatch h)⟩)⟩)⟩)

def html_linet : EOpt := ⟨true, true, false, [(2,false),(0,true),(1,true)], 3⟩
def html_linet_tab2false : List (List EA) := [[⟨0,0,false,none,none,none,false,false,0⟩],[⟨1,0,false,some (.own 0),some 2,none,false,true,0⟩,⟨2,0,false,some (.own 0),some 2,none,false,true,0⟩,⟨3,0,false,some (.own 0),some 2,none,false,true,0⟩],[⟨1,0,false,some .newline,none,none,false,false,0⟩],[⟨1,0,false,some .newline,some 5,none,false,false,0⟩],[⟨1,0,false,some (.own 5),some 6,none,false,true,0⟩],[⟨1,0,false,some (.own 5),some 6,none,false,true,0⟩],[⟨1,0,false,some (.own 5),some 6,none,false,true,1⟩],[⟨2,0,false,some (.own 5),some 6,none,false,true,0⟩,⟨3,0,false,some (.own 5),some 6,none,false,true,0⟩],[⟨2,0,false,some (.own 5),some 6,none,false,true,0⟩,⟨3,0,false,some (.own 5),some 6,none,false,true,0⟩],[⟨2,0,false,some (.own 5),some 6,none,false,true,0⟩,⟨3,0,false,some (.own 5),some 6,none,false,true,0⟩],[⟨2,0,false,some (.own 5),some 6,none,false,true,0⟩,⟨3,0,false,some (.own 5),some 6,none,false,true,0⟩],[⟨2,0,false,some (.own 5),some 6,none,false,true,0⟩],[⟨2,0,false,some (.own 5),some 6,none,false,true,0⟩],[⟨3,0,false,some (.own 5),some 6,none,false,true,0⟩],[⟨3,0,false,some (.own 5),some 6,none,false,true,0⟩],[⟨3,0,false,some (.own 5),some 6,none,false,true,0⟩],[⟨3,0,false,some (.own 5),some 6,none,false,true,0⟩],[⟨3,0,false,some (.own 5),some 6,none,false,true,0⟩],[⟨3,0,true,some (.own 5),some 6,none,false,true,0⟩],[⟨3,0,false,some (.own 5),some 6,none,false,true,0⟩],[⟨3,0,false,some (.own 5),some 6,none,false,true,0⟩],[⟨3,0,true,some (.own 5),some 6,none,false,true,0⟩,⟨3,0,true,some .internalNl,some 6,none,false,true,0⟩],[⟨3,0,true,some (.own 5),some 6,none,false,true,0⟩,⟨3,0,true,some .internalNl,some 6,none,false,true,0⟩],[⟨3,0,true,some (.own 5),some 6,none,false,true,0⟩,⟨3,0,true,some .internalNl,some 6,none,false,true,0⟩],[⟨3,0,true,some (.own 5),some 6,none,false,true,0⟩,⟨3,0,true,some .internalNl,some 6,none,false,true,0⟩],[⟨3,0,true,some (.own 5),some 6,none,false,true,0⟩,⟨3,0,true,some .internalNl,some 6,none,false,true,0⟩],[⟨3,0,true,some (.own 5),some 6,none,false,true,0⟩,⟨3,0,true,some .internalNl,some 6,none,false,true,0⟩],[⟨3,0,true,some (.own 5),some 6,none,false,true,0⟩,⟨3,0,true,some .internalNl,some 6,none,false,true,0⟩],[⟨3,0,false,some (.own 5),some 6,none,false,true,0⟩],[⟨3,0,false,some (.own 5),some 6,none,false,true,0⟩],[⟨3,0,true,some (.own 5),some 6,none,false,true,0⟩,⟨3,0,true,some .internalNl,some 6,none,false,true,0⟩],[⟨3,0,true,some .internalNl,some 6,none,false,true,0⟩],[⟨3,0,true,some (.own 5),some 6,none,false,true,0⟩,⟨3,0,true,some .internalNl,some 6,none,false,true,0⟩],[⟨3,0,false,some (.own 5),some 6,none,false,true,0⟩],[⟨3,0,false,some (.own 5),some 6,none,false,true,0⟩],[⟨3,0,false,some (.own 5),some 6,none,false,true,0⟩],[⟨3,0,false,some (.own 5),some 6,none,false,true,0⟩],[⟨3,0,false,some (.own 5),some 6,none,false,true,0⟩],[⟨3,0,false,some (.own 5),some 6,none,false,true,0⟩],[⟨3,0,false,some (.own 5),some 6,none,false,true,0⟩],[⟨3,0,false,some (.own 5),some 6,none,false,true,0⟩],[⟨3,0,false,some (.own 5),some 6,none,false,true,0⟩],[⟨3,0,false,some (.own 5),some 6,none,false,true,0⟩],[⟨3,0,false,some (.own 5),some 6,none,false,true,0⟩],[⟨3,0,false,some (.own 5),some 6,none,false,true,0⟩],[⟨3,0,false,some (.own 5),some 6,none,false,true,0⟩],[⟨3,0,false,some (.own 5),some 6,none,false,true,0⟩],[⟨3,0,false,some (.own 5),some 6,none,false,true,0⟩],[⟨3,0,false,some (.own 5),some 6,none,false,true,0⟩],[⟨3,0,false,some (.own 5),some 6,none,false,true,0⟩],[⟨3,0,false,some (.own 5),some 6,none,false,true,0⟩],[⟨3,0,false,some (.own 5),some 6,none,false,true,0⟩],[⟨3,0,false,some (.own 5),some 6,none,false,true,0⟩],[⟨3,0,false,some (.own 5),some 6,none,false,true,0⟩],[⟨3,0,false,some (.own 5),some 6,none,false,true,0⟩],[⟨3,0,false,some (.own 5),some 6,none,false,true,0⟩],[⟨3,0,false,some (.own 5),some 6,none,false,true,0⟩],[⟨3,0,false,some (.own 5),some 6,none,false,true,0⟩],[⟨3,0,false,some (.own 5),some 6,none,false,true,0⟩],[⟨3,0,false,some (.own 5),some 6,none,false,true,0⟩],[⟨3,0,false,some (.own 5),some 6,none,false,true,0⟩],[⟨3,0,false,some (.own 5),some 6,none,false,true,0⟩],[⟨3,0,false,some (.own 5),some 6,none,false,true,0⟩]]
theorem html_linet_closed2false : closed emb2_rowst html_linet_tab2false (EA.start html_M html_linet 2) (EA.succ html_M html_linet (2, false)) (EA.eofOk html_M html_linet (2, false)) = true := by
  decide +kernel
def html_linet_C2false : MCert html_M html_linet (2, false) := ⟨emb2_Dt, html_linet_tab2false, html_linet_closed2false, (fun _ => ⟨by decide +kernel, by decide +kernel, by decide +kernel⟩)⟩
def html_linet_tab0true : List (List EA) := [[⟨0,0,false,none,none,none,false,false,0⟩],[⟨1,0,false,some (.own 0),some 1,none,false,true,0⟩,⟨2,0,false,some (.own 0),some 1,none,false,true,0⟩,⟨3,0,false,some (.own 0),some 1,none,false,true,0⟩],[⟨1,0,false,some .newline,none,none,false,false,0⟩],[⟨1,0,false,some .newline,some 4,none,false,false,0⟩],[⟨1,0,true,some (.own 9),some 5,none,true,true,0⟩],[⟨1,0,true,some (.own 9),some 5,none,true,true,0⟩],[⟨1,0,false,some (.own 9),some 5,none,false,true,0⟩],[⟨1,0,false,some (.own 9),some 5,none,false,true,1⟩],[⟨2,0,true,some (.own 9),some 5,none,true,true,0⟩,⟨3,0,true,some (.own 9),some 5,none,true,true,0⟩,⟨3,0,true,some .internalNl,some 5,none,true,true,0⟩],[⟨2,0,true,some (.own 9),some 5,none,true,true,0⟩,⟨3,0,true,some (.own 9),some 5,none,true,true,0⟩,⟨3,0,true,some .internalNl,some 5,none,false,true,0⟩,⟨3,0,true,some .internalNl,some 5,none,true,true,0⟩],[⟨2,0,true,some (.own 9),some 5,none,true,true,0⟩,⟨3,0,true,some (.own 9),some 5,none,true,true,0⟩,⟨3,0,true,some .internalNl,some 5,none,false,true,0⟩,⟨3,0,true,some .internalNl,some 5,none,true,true,0⟩],[⟨2,0,true,some (.own 9),some 5,none,true,true,0⟩,⟨3,0,true,some (.own 9),some 5,none,true,true,0⟩,⟨3,0,true,some .internalNl,some 5,none,false,true,0⟩,⟨3,0,true,some .internalNl,some 5,none,true,true,0⟩],[⟨2,0,true,some (.own 9),some 5,none,true,true,0⟩,⟨3,0,true,some (.own 9),some 5,none,true,true,0⟩,⟨3,0,true,some .internalNl,some 5,none,false,true,0⟩,⟨3,0,true,some .internalNl,some 5,none,true,true,0⟩],[⟨2,0,true,some (.own 9),some 5,none,true,true,0⟩,⟨3,0,true,some (.own 9),some 5,none,true,true,0⟩,⟨3,0,true,some .internalNl,some 5,none,false,true,0⟩,⟨3,0,true,some .internalNl,some 5,none,true,true,0⟩],[⟨2,0,true,some (.own 9),some 5,none,true,true,0⟩,⟨3,0,true,some (.own 9),some 5,none,true,true,0⟩,⟨3,0,true,some .internalNl,some 5,none,false,true,0⟩,⟨3,0,true,some .internalNl,some 5,none,true,true,0⟩],[⟨2,0,true,some (.own 9),some 5,none,true,true,0⟩,⟨3,0,true,some (.own 9),some 5,none,true,true,0⟩,⟨3,0,true,some .internalNl,some 5,none,true,true,0⟩],[⟨2,0,true,some (.own 9),some 5,none,true,true,0⟩,⟨3,0,true,some (.own 9),some 5,none,true,true,0⟩,⟨3,0,true,some .internalNl,some 5,none,false,true,0⟩,⟨3,0,true,some .internalNl,some 5,none,true,true,0⟩],[⟨2,0,true,some (.own 9),some 5,none,true,true,0⟩,⟨3,0,true,some (.own 9),some 5,none,true,true,0⟩,⟨3,0,true,some .internalNl,some 5,none,false,true,0⟩,⟨3,0,true,some .internalNl,some 5,none,true,true,0⟩],[⟨2,0,true,some (.own 9),some 5,none,true,true,0⟩,⟨3,0,true,some (.own 9),some 5,none,true,true,0⟩,⟨3,0,true,some .internalNl,some 5,none,false,true,0⟩,⟨3,0,true,some .internalNl,some 5,none,true,true,0⟩],[⟨2,0,true,some (.own 9),some 5,none,true,true,0⟩,⟨3,0,true,some (.own 9),some 5,none,true,true,0⟩,⟨3,0,true,some .internalNl,some 5,none,false,true,0⟩,⟨3,0,true,some .internalNl,some 5,none,true,true,0⟩],[⟨2,0,true,some (.own 9),some 5,none,true,true,0⟩,⟨3,0,true,some (.own 9),some 5,none,true,true,0⟩,⟨3,0,true,some .internalNl,some 5,none,false,true,0⟩,⟨3,0,true,some .internalNl,some 5,none,true,true,0⟩],[⟨2,0,true,some (.own 9),some 5,none,true,true,0⟩,⟨3,0,true,some (.own 9),some 5,none,true,true,0⟩,⟨3,0,true,some .internalNl,some 5,none,false,true,0⟩,⟨3,0,true,some .internalNl,some 5,none,true,true,0⟩],[⟨2,0,true,some (.own 9),some 5,none,false,true,0⟩],[⟨2,0,false,some (.own 9),some 5,none,false,true,2⟩],[⟨3,0,true,some (.own 9),some 5,none,true,true,0⟩,⟨3,0,true,some .internalNl,some 5,none,false,true,0⟩,⟨3,0,true,some .internalNl,some 5,none,true,true,0⟩],[⟨3,0,true,some .internalNl,some 5,none,false,true,0⟩],[⟨3,0,true,some (.own 9),some 5,none,true,true,0⟩,⟨3,0,true,some .internalNl,some 5,none,true,true,0⟩],[⟨3,0,true,some (.own 9),some 5,none,true,true,0⟩,⟨3,0,true,some .internalNl,some 5,none,false,true,0⟩,⟨3,0,true,some .internalNl,some 5,none,true,true,0⟩],[⟨3,0,true,some .internalNl,some 5,none,false,true,0⟩],[⟨3,0,true,some (.own 9),some 5,none,true,true,0⟩,⟨3,0,true,some .internalNl,some 5,none,true,true,0⟩],[⟨3,0,true,some (.own 9),some 5,none,false,true,0⟩,⟨3,0,true,some .internalNl,some 5,none,false,true,0⟩],[⟨3,0,true,some (.own 9),some 5,none,false,true,0⟩,⟨3,0,true,some .internalNl,some 5,none,false,true,0⟩],[⟨3,0,true,some (.own 9),some 5,none,false,true,0⟩,⟨3,0,true,some .internalNl,some 5,none,false,true,0⟩],[⟨3,0,true,some (.own 9),some 5,none,false,true,0⟩,⟨3,0,true,some .internalNl,some 5,none,false,true,0⟩],[⟨3,0,true,some (.own 9),some 5,none,false,true,0⟩,⟨3,0,true,some .internalNl,some 5,none,false,true,0⟩],[⟨3,0,true,some (.own 9),some 5,none,false,true,0⟩,⟨3,0,true,some .internalNl,some 5,none,false,true,0⟩],[⟨3,0,true,some (.own 9),some 5,none,false,true,0⟩,⟨3,0,true,some .internalNl,some 5,none,false,true,0⟩],[⟨3,0,false,some (.own 9),some 5,none,false,true,2⟩],[⟨3,0,true,some (.own 9),some 5,none,false,true,0⟩,⟨3,0,true,some .internalNl,some 5,none,false,true,0⟩],[⟨3,0,true,some .internalNl,some 5,none,false,true,0⟩],[⟨3,0,false,some (.own 9),some 5,none,false,true,2⟩],[⟨3,0,false,some (.own 9),some 5,none,false,true,2⟩],[⟨3,0,false,some (.own 9),some 5,none,false,true,2⟩],[⟨3,0,false,some (.own 9),some 5,none,false,true,2⟩],[⟨3,0,false,some (.own 9),some 5,none,false,true,2⟩],[],[],[],[],[],[]]
theorem html_linet_closed0true : closed emb0_rowst html_linet_tab0true (EA.start html_M html_linet 0) (EA.succ html_M html_linet (0, true)) (EA.eofOk html_M html_linet (0, true)) = true := by
  decide +kernel
def html_linet_C0true : MCert html_M html_linet (0, true) := ⟨emb0_Dt, html_linet_tab0true, html_linet_closed0true, (fun _ => ⟨by decide +kernel, by decide +kernel, by decide +kernel⟩)⟩
def html_linet_tab1true : List (List EA) := [[⟨0,0,false,none,none,none,false,false,0⟩],[⟨1,0,false,some (.own 0),some 1,none,false,true,0⟩,⟨2,0,false,some (.own 0),some 1,none,false,true,0⟩,⟨3,0,false,some (.own 0),some 1,none,false,true,0⟩],[⟨1,0,false,some .newline,none,none,false,false,0⟩],[⟨1,0,false,some .newline,some 4,none,false,false,0⟩],[⟨1,0,true,some (.own 7),some 5,none,true,true,0⟩],[⟨1,0,true,some (.own 7),some 5,none,true,true,0⟩],[⟨1,0,false,some (.own 7),some 5,none,false,true,0⟩],[⟨1,0,false,some (.own 7),some 5,none,false,true,1⟩],[⟨2,0,true,some (.own 7),some 5,none,true,true,0⟩,⟨3,0,true,some (.own 7),some 5,none,true,true,0⟩,⟨3,0,true,some .internalNl,some 5,none,true,true,0⟩],[⟨2,0,true,some (.own 7),some 5,none,true,true,0⟩,⟨3,0,true,some (.own 7),some 5,none,true,true,0⟩,⟨3,0,true,some .internalNl,some 5,none,false,true,0⟩,⟨3,0,true,some .internalNl,some 5,none,true,true,0⟩],[⟨2,0,true,some (.own 7),some 5,none,true,true,0⟩,⟨3,0,true,some (.own 7),some 5,none,true,true,0⟩,⟨3,0,true,some .internalNl,some 5,none,false,true,0⟩,⟨3,0,true,some .internalNl,some 5,none,true,true,0⟩],[⟨2,0,true,some (.own 7),some 5,none,true,true,0⟩,⟨3,0,true,some (.own 7),some 5,none,true,true,0⟩,⟨3,0,true,some .internalNl,some 5,none,true,true,0⟩],[⟨2,0,true,some (.own 7),some 5,none,true,true,0⟩,⟨3,0,true,some (.own 7),some 5,none,true,true,0⟩,⟨3,0,true,some .internalNl,some 5,none,false,true,0⟩,⟨3,0,true,some .internalNl,some 5,none,true,true,0⟩],[⟨2,0,true,some (.own 7),some 5,none,true,true,0⟩,⟨3,0,true,some (.own 7),some 5,none,true,true,0⟩,⟨3,0,true,some .internalNl,some 5,none,false,true,0⟩,⟨3,0,true,some .internalNl,some 5,none,true,true,0⟩],[⟨2,0,false,some (.own 7),some 5,none,false,true,0⟩],[⟨2,0,true,some (.own 7),some 5,none,false,true,0⟩],[⟨2,0,true,some (.own 7),some 2,none,false,true,0⟩],[⟨2,0,false,some (.own 7),some 5,none,false,true,2⟩],[⟨3,0,true,some (.own 7),some 5,none,true,true,0⟩,⟨3,0,true,some .internalNl,some 5,none,true,true,0⟩],[⟨3,0,true,some (.own 7),some 5,none,true,true,0⟩,⟨3,0,true,some .internalNl,some 5,none,false,true,0⟩,⟨3,0,true,some .internalNl,some 5,none,true,true,0⟩],[⟨3,0,true,some (.own 7),some 5,none,true,true,0⟩,⟨3,0,true,some .internalNl,some 5,none,false,true,0⟩,⟨3,0,true,some .internalNl,some 5,none,true,true,0⟩],[⟨3,0,true,some (.own 7),some 5,none,true,true,0⟩,⟨3,0,true,some .internalNl,some 5,none,false,true,0⟩,⟨3,0,true,some .internalNl,some 5,none,true,true,0⟩],[⟨3,0,true,some (.own 7),some 5,none,true,true,0⟩,⟨3,0,true,some .internalNl,some 5,none,false,true,0⟩,⟨3,0,true,some .internalNl,some 5,none,true,true,0⟩],[⟨3,0,true,some (.own 7),some 5,none,true,true,0⟩,⟨3,0,true,some .internalNl,some 5,none,true,true,0⟩],[⟨3,0,true,some (.own 7),some 5,none,true,true,0⟩,⟨3,0,true,some .internalNl,some 5,none,false,true,0⟩,⟨3,0,true,some .internalNl,some 5,none,true,true,0⟩],[⟨3,0,true,some (.own 7),some 5,none,true,true,0⟩,⟨3,0,true,some .internalNl,some 5,none,false,true,0⟩,⟨3,0,true,some .internalNl,some 5,none,true,true,0⟩],[⟨3,0,true,some (.own 7),some 5,none,true,true,0⟩,⟨3,0,true,some .internalNl,some 5,none,false,true,0⟩,⟨3,0,true,some .internalNl,some 5,none,true,true,0⟩],[⟨3,0,true,some (.own 7),some 5,none,true,true,0⟩,⟨3,0,true,some .internalNl,some 5,none,false,true,0⟩,⟨3,0,true,some .internalNl,some 5,none,true,true,0⟩],[⟨3,0,false,some (.own 7),some 5,none,false,true,0⟩],[⟨3,0,false,some (.own 7),some 5,none,false,true,0⟩],[⟨3,0,true,some (.own 7),some 5,none,false,true,0⟩,⟨3,0,true,some .internalNl,some 5,none,false,true,0⟩],[⟨3,0,true,some (.own 7),some 5,none,false,true,0⟩,⟨3,0,true,some .internalNl,some 5,none,false,true,0⟩],[⟨3,0,true,some (.own 7),some 5,none,false,true,0⟩,⟨3,0,true,some .internalNl,some 5,none,false,true,0⟩],[⟨3,0,true,some (.own 7),some 5,none,false,true,0⟩,⟨3,0,true,some .internalNl,some 5,none,false,true,0⟩],[⟨3,0,true,some (.own 7),some 5,none,false,true,0⟩,⟨3,0,true,some .internalNl,some 5,none,false,true,0⟩],[⟨3,0,true,some (.own 7),some 5,none,false,true,0⟩,⟨3,0,true,some .internalNl,some 5,none,false,true,0⟩],[⟨3,0,true,some (.own 7),some 5,none,false,true,0⟩,⟨3,0,true,some .internalNl,some 5,none,false,true,0⟩],[⟨3,0,true,some (.own 7),some 2,none,false,true,0⟩],[⟨3,0,false,some (.own 7),some 5,none,false,true,2⟩],[⟨3,0,true,some (.own 7),some 5,none,true,true,0⟩,⟨3,0,true,some .internalNl,some 5,none,false,true,0⟩,⟨3,0,true,some .internalNl,some 5,none,true,true,0⟩],[⟨3,0,true,some .internalNl,some 5,none,true,true,0⟩],[⟨3,0,true,some (.own 7),some 5,none,true,true,0⟩,⟨3,0,true,some .internalNl,some 5,none,false,true,0⟩,⟨3,0,true,some .internalNl,some 5,none,true,true,0⟩],[⟨3,0,true,some .internalNl,some 5,none,true,true,0⟩],[⟨3,0,false,some (.own 7),some 5,none,false,true,0⟩],[⟨3,0,true,some (.own 7),some 5,none,false,true,0⟩,⟨3,0,true,some .internalNl,some 5,none,false,true,0⟩],[⟨3,0,true,some .internalNl,some 5,none,false,true,0⟩],[⟨3,0,false,some (.own 7),some 5,none,false,true,2⟩],[⟨3,0,false,some (.own 7),some 5,none,false,true,2⟩],[⟨3,0,false,some (.own 7),some 5,none,false,true,2⟩],[⟨3,0,false,some (.own 7),some 5,none,false,true,2⟩],[⟨3,0,false,some (.own 7),some 5,none,false,true,2⟩],[⟨3,0,false,some (.own 7),some 5,none,false,true,2⟩],[],[],[],[],[],[]]
theorem html_linet_closed1true : closed emb1_rowst html_linet_tab1true (EA.start html_M html_linet 1) (EA.succ html_M html_linet (1, true)) (EA.eofOk html_M html_linet (1, true)) = true := by
  decide +kernel
def html_linet_C1true : MCert html_M html_linet (1, true) := ⟨emb1_Dt, html_linet_tab1true, html_linet_closed1true, (fun _ => ⟨by decide +kernel, by decide +kernel, by decide +kernel⟩)⟩
theorem html_linet_certs : ∀ u ∈ html_linet.use, Nonempty (MCert html_M html_linet u) :=
  (List.forall_mem_cons.mpr ⟨⟨html_linet_C2false⟩,
  (List.forall_mem_cons.mpr ⟨⟨html_linet_C0true⟩,
  (List.forall_mem_cons.mpr ⟨⟨html_linet_C1true⟩,
  (fun _ h => nomatch h)⟩)⟩)⟩)

def html_entity : EOpt := ⟨false, false, false, [(5,false),(3,true),(4,true)], 3⟩
def html_entity_tab5false : List (List EA) := [[⟨0,0,false,none,none,none,false,false,0⟩],[⟨1,0,false,some (.own 0),some 2,none,false,true,0⟩,⟨2,0,false,some (.own 0),some 2,none,false,true,0⟩,⟨3,0,false,some (.own 0),some 2,none,false,true,0⟩],[⟨1,0,false,some (.own 1),some 4,none,false,true,0⟩],[⟨2,0,false,some (.own 1),some 4,none,false,true,0⟩],[⟨2,0,false,some (.own 1),some 4,none,false,true,0⟩],[⟨3,0,false,some (.own 1),some 4,none,false,true,0⟩],[⟨3,0,false,some (.own 1),some 4,none,false,true,0⟩],[⟨3,0,false,some (.own 1),some 4,none,false,true,0⟩],[⟨3,0,false,some (.own 1),some 4,none,false,true,0⟩],[⟨3,0,false,some (.own 1),some 4,none,false,true,0⟩],[⟨3,0,false,some (.own 1),some 4,none,false,true,0⟩],[⟨3,0,false,some (.own 1),some 4,none,false,true,0⟩],[⟨3,0,false,some (.own 1),some 4,none,false,true,0⟩],[⟨3,0,false,some (.own 1),some 4,none,false,true,0⟩],[⟨3,0,false,some (.own 1),some 4,none,false,true,0⟩],[⟨3,0,false,some (.own 1),some 4,none,false,true,0⟩],[⟨3,0,false,some (.own 1),some 4,none,false,true,0⟩],[⟨3,0,false,some (.own 1),some 4,none,false,true,0⟩],[⟨3,0,false,some (.own 1),some 4,none,false,true,0⟩],[⟨3,0,false,some (.own 1),some 4,none,false,true,0⟩],[⟨3,0,false,some (.own 1),some 4,none,false,true,0⟩],[⟨3,0,false,some (.own 1),some 4,none,false,true,0⟩],[⟨3,0,false,some (.own 1),some 4,none,false,true,0⟩],[⟨3,0,false,some (.own 1),some 4,none,false,true,0⟩],[⟨3,0,false,some (.own 1),some 4,none,false,true,0⟩],[⟨3,0,false,some (.own 1),some 4,none,false,true,0⟩],[⟨3,0,false,some (.own 1),some 4,none,false,true,0⟩],[⟨3,0,false,some (.own 1),some 4,none,false,true,0⟩],[⟨3,0,false,some (.own 1),some 4,none,false,true,0⟩],[⟨3,0,false,some (.own 1),some 4,none,false,true,0⟩],[⟨3,0,false,some (.own 1),some 4,none,false,true,0⟩],[⟨3,0,false,some (.own 1),some 4,none,false,true,0⟩],[⟨3,0,false,some (.own 1),some 4,none,false,true,0⟩],[⟨3,0,false,some (.own 1),some 4,none,false,true,0⟩],[⟨3,0,false,some (.own 1),some 4,none,false,true,0⟩],[⟨3,0,false,some (.own 1),some 4,none,false,true,0⟩],[⟨3,0,false,some (.own 1),some 4,none,false,true,0⟩],[⟨3,0,false,some (.own 1),some 4,none,false,true,0⟩],[⟨3,0,false,some (.own 1),some 4,none,false,true,0⟩],[⟨3,0,false,some (.own 1),some 4,none,false,true,0⟩],[⟨3,0,false,some (.own 1),some 4,none,false,true,0⟩],[⟨3,0,false,some (.own 1),some 4,none,false,true,0⟩],[⟨3,0,false,some (.own 1),some 4,none,false,true,0⟩],[⟨3,0,false,some (.own 1),some 4,none,false,true,0⟩],[⟨3,0,false,some (.own 1),some 4,none,false,true,0⟩],[⟨3,0,false,some (.own 1),some 4,none,false,true,0⟩]]
theorem html_entity_closed5false : closed emb5_rows html_entity_tab5false (EA.start html_M html_entity 5) (EA.succ html_M html_entity (5, false)) (EA.eofOk html_M html_entity (5, false)) = true := by
  decide +kernel
def html_entity_C5false : MCert html_M html_entity (5, false) := ⟨emb5_D, html_entity_tab5false, html_entity_closed5false, (fun h => nomatch h)⟩
def html_entity_tab3true : List (List EA) := [[⟨0,0,false,none,none,none,false,false,0⟩],[⟨1,0,false,some (.own 0),some 1,none,false,true,0⟩,⟨2,0,false,some (.own 0),some 1,none,false,true,0⟩,⟨3,0,false,some (.own 0),some 1,none,false,true,0⟩],[⟨1,0,false,some (.own 1),some 3,none,false,true,0⟩],[⟨1,0,false,none,some 3,none,false,false,0⟩],[⟨2,0,false,some (.own 1),some 3,none,false,true,0⟩],[⟨2,0,false,none,some 3,none,false,false,0⟩],[⟨3,0,false,some (.own 1),some 3,none,false,true,0⟩],[⟨3,0,false,some (.own 1),some 3,none,false,true,0⟩],[⟨3,0,false,none,some 3,none,false,false,0⟩],[⟨3,0,false,none,some 3,none,false,false,0⟩],[⟨3,0,false,none,some 3,none,false,false,0⟩],[⟨3,0,false,none,some 3,none,false,false,0⟩],[⟨3,0,false,none,some 3,none,false,false,0⟩],[⟨3,0,false,none,some 3,none,false,false,0⟩,⟨3,0,true,some .internalNl,some 3,none,false,true,0⟩],[⟨3,0,false,some .internalNl,some 3,none,false,true,0⟩,⟨3,0,true,some .internalNl,some 3,none,false,true,0⟩],[⟨3,0,false,some .internalNl,some 3,none,false,true,0⟩,⟨3,0,true,some .internalNl,some 3,none,false,true,0⟩],[⟨3,0,false,none,some 3,none,false,false,0⟩,⟨3,0,true,some .internalNl,some 3,none,false,true,0⟩],[⟨3,0,false,some .internalNl,some 3,none,false,true,0⟩,⟨3,0,true,some .internalNl,some 3,none,false,true,0⟩],[⟨3,0,false,some .internalNl,some 3,none,false,true,0⟩,⟨3,0,true,some .internalNl,some 3,none,false,true,0⟩],[⟨3,0,true,some .internalNl,some 3,none,false,true,0⟩]]
theorem html_entity_closed3true : closed emb3_rows html_entity_tab3true (EA.start html_M html_entity 3) (EA.succ html_M html_entity (3, true)) (EA.eofOk html_M html_entity (3, true)) = true := by
  decide +kernel
def html_entity_C3true : MCert html_M html_entity (3, true) := ⟨emb3_D, html_entity_tab3true, html_entity_closed3true, (fun h => nomatch h)⟩
def html_entity_tab4true : List (List EA) := [[⟨0,0,false,none,none,none,false,false,0⟩],[⟨1,0,false,some (.own 0),some 1,none,false,true,0⟩,⟨2,0,false,some (.own 0),some 1,none,false,true,0⟩,⟨3,0,false,some (.own 0),some 1,none,false,true,0⟩],[⟨1,0,false,some (.own 1),some 3,none,false,true,0⟩],[⟨1,0,false,none,some 3,none,false,false,0⟩],[⟨2,0,false,some (.own 1),some 3,none,false,true,0⟩],[⟨2,0,false,some (.own 1),some 2,none,false,true,0⟩],[⟨2,0,false,none,some 3,none,false,false,0⟩],[⟨3,0,false,some (.own 1),some 3,none,false,true,0⟩],[⟨3,0,false,some (.own 1),some 3,none,false,true,0⟩],[⟨3,0,false,some (.own 1),some 2,none,false,true,0⟩],[⟨3,0,false,none,some 3,none,false,false,0⟩],[⟨3,0,false,none,some 3,none,false,false,0⟩],[⟨3,0,false,none,some 3,none,false,false,0⟩],[⟨3,0,false,none,some 3,none,false,false,0⟩],[⟨3,0,false,none,some 3,none,false,false,0⟩],[⟨3,0,false,none,some 3,none,false,false,0⟩],[⟨3,0,false,none,some 3,none,false,false,0⟩,⟨3,0,true,some .internalNl,some 3,none,false,true,0⟩],[⟨3,0,false,some .internalNl,some 3,none,false,true,0⟩,⟨3,0,true,some .internalNl,some 3,none,false,true,0⟩],[⟨3,0,false,some .internalNl,some 3,none,false,true,0⟩,⟨3,0,true,some .internalNl,some 3,none,false,true,0⟩],[⟨3,0,false,none,some 3,none,false,false,0⟩,⟨3,0,true,some .internalNl,some 3,none,false,true,0⟩],[⟨3,0,false,some .internalNl,some 3,none,false,true,0⟩,⟨3,0,true,some .internalNl,some 3,none,false,true,0⟩],[⟨3,0,false,some .internalNl,some 3,none,false,true,0⟩,⟨3,0,true,some .internalNl,some 3,none,false,true,0⟩],[⟨3,0,true,some .internalNl,some 3,none,false,true,0⟩]]
theorem html_entity_closed4true : closed emb4_rows html_entity_tab4true (EA.start html_M html_entity 4) (EA.succ html_M html_entity (4, true)) (EA.eofOk html_M html_entity (4, true)) = true := by
  decide +kernel
def html_entity_C4true : MCert html_M html_entity (4, true) := ⟨emb4_D, html_entity_tab4true, html_entity_closed4true, (fun h => nomatch h)⟩
theorem html_entity_certs : ∀ u ∈ html_entity.use, Nonempty (MCert html_M html_entity u) :=
  (List.forall_mem_cons.mpr ⟨⟨html_entity_C5false⟩,
  (List.forall_mem_cons.mpr ⟨⟨html_entity_C3true⟩,
  (List.forall_mem_cons.mpr ⟨⟨html_entity_C4true⟩,
  (fun _ h => nomatch h)⟩)⟩)⟩)

def html_entityt : EOpt := ⟨true, true, false, [(5,false),(3,true),(4,true)], 3⟩
def html_entityt_tab5false : List (List EA) := [[⟨0,0,false,none,none,none,false,false,0⟩],[⟨1,0,false,some (.own 0),some 2,none,false,true,0⟩,⟨2,0,false,some (.own 0),some 2,none,false,true,0⟩,⟨3,0,false,some (.own 0),some 2,none,false,true,0⟩],[⟨1,0,false,some (.own 1),some 4,none,false,true,1⟩],[⟨2,0,false,some (.own 1),some 4,none,false,true,0⟩],[⟨2,0,false,some (.own 1),some 4,none,false,true,0⟩],[⟨3,0,false,some (.own 1),some 4,none,false,true,0⟩],[⟨3,0,false,some (.own 1),some 4,none,false,true,0⟩],[⟨3,0,false,some (.own 1),some 4,none,false,true,0⟩],[⟨3,0,false,some (.own 1),some 4,none,false,true,0⟩],[⟨3,0,false,some (.own 1),some 4,none,false,true,0⟩],[⟨3,0,false,some (.own 1),some 4,none,false,true,0⟩],[⟨3,0,false,some (.own 1),some 4,none,false,true,0⟩],[⟨3,0,false,some (.own 1),some 4,none,false,true,0⟩],[⟨3,0,false,some (.own 1),some 4,none,false,true,0⟩],[⟨3,0,false,some (.own 1),some 4,none,false,true,0⟩],[⟨3,0,false,some (.own 1),some 4,none,false,true,0⟩],[⟨3,0,false,some (.own 1),some 4,none,false,true,0⟩],[⟨3,0,false,some (.own 1),some 4,none,false,true,0⟩],[⟨3,0,false,some (.own 1),some 4,none,false,true,0⟩],[⟨3,0,false,some (.own 1),some 4,none,false,true,0⟩],[⟨3,0,false,some (.own 1),some 4,none,false,true,0⟩],[⟨3,0,false,some (.own 1),some 4,none,false,true,0⟩],[⟨3,0,false,some (.own 1),some 4,none,false,true,0⟩],[⟨3,0,false,some (.own 1),some 4,none,false,true,0⟩],[⟨3,0,false,some (.own 1),some 4,none,false,true,0⟩],[⟨3,0,false,some (.own 1),some 4,none,false,true,0⟩],[⟨3,0,false,some (.own 1),some 4,none,false,true,0⟩],[⟨3,0,false,some (.own 1),some 4,none,false,true,0⟩],[⟨3,0,false,some (.own 1),some 4,none,false,true,0⟩],[⟨3,0,false,some (.own 1),some 4,none,false,true,0⟩],[⟨3,0,false,some (.own 1),some 4,none,false,true,0⟩],[⟨3,0,false,some (.own 1),some 4,none,false,true,0⟩],[⟨3,0,false,some (.own 1),some 4,none,false,true,0⟩],[⟨3,0,false,some (.own 1),some 4,none,false,true,0⟩],[⟨3,0,false,some (.own 1),some 4,none,false,true,0⟩],[⟨3,0,false,some (.own 1),some 4,none,false,true,0⟩],[⟨3,0,false,some (.own 1),some 4,none,false,true,0⟩],[⟨3,0,false,some (.own 1),some 4,none,false,true,0⟩],[⟨3,0,false,some (.own 1),some 4,none,false,true,0⟩],[⟨3,0,false,some (.own 1),some 4,none,false,true,0⟩],[⟨3,0,false,some (.own 1),some 4,none,false,true,0⟩],[⟨3,0,false,some (.own 1),some 4,none,false,true,0⟩],[⟨3,0,false,some (.own 1),some 4,none,false,true,0⟩],[⟨3,0,false,some (.own 1),some 4,none,false,true,0⟩],[⟨3,0,false,some (.own 1),some 4,none,false,true,0⟩],[⟨3,0,false,some (.own 1),some 4,none,false,true,0⟩]]
theorem html_entityt_closed5false : closed emb5_rowst html_entityt_tab5false (EA.start html_M html_entityt 5) (EA.succ html_M html_entityt (5, false)) (EA.eofOk html_M html_entityt (5, false)) = true := by
  decide +kernel
def html_entityt_C5false : MCert html_M html_entityt (5, false) := ⟨emb5_Dt, html_entityt_tab5false, html_entityt_closed5false, (fun _ => ⟨by decide +kernel, by decide +kernel, by decide +kernel⟩)⟩
def html_entityt_tab3true : List (List EA) := [[⟨0,0,false,none,none,none,false,false,0⟩],[⟨1,0,false,some (.own 0),some 1,none,false,true,0⟩,⟨2,0,false,some (.own 0),some 1,none,false,true,0⟩,⟨3,0,false,some (.own 0),some 1,none,false,true,0⟩],[⟨1,0,false,some (.own 1),some 3,none,false,true,0⟩],[⟨1,0,false,none,some 3,none,false,false,1⟩],[⟨2,0,false,some (.own 1),some 3,none,false,true,0⟩],[⟨2,0,false,none,some 3,none,false,false,2⟩],[⟨3,0,false,some (.own 1),some 3,none,false,true,0⟩],[⟨3,0,false,some (.own 1),some 3,none,false,true,0⟩],[⟨3,0,false,none,some 3,none,false,false,2⟩],[⟨3,0,false,none,some 3,none,false,false,2⟩],[⟨3,0,false,none,some 3,none,false,false,2⟩],[⟨3,0,false,none,some 3,none,false,false,2⟩],[⟨3,0,false,none,some 3,none,false,false,2⟩],[⟨3,0,false,none,some 3,none,false,false,2⟩],[],[],[],[],[],[]]
theorem html_entityt_closed3true : closed emb3_rowst html_entityt_tab3true (EA.start html_M html_entityt 3) (EA.succ html_M html_entityt (3, true)) (EA.eofOk html_M html_entityt (3, true)) = true := by
  decide +kernel
def html_entityt_C3true : MCert html_M html_entityt (3, true) := ⟨emb3_Dt, html_entityt_tab3true, html_entityt_closed3true, (fun _ => ⟨by decide +kernel, by decide +kernel, by decide +kernel⟩)⟩
def html_entityt_tab4true : List (List EA) := [[⟨0,0,false,none,none,none,false,false,0⟩],[⟨1,0,false,some (.own 0),some 1,none,false,true,0⟩,⟨2,0,false,some (.own 0),some 1,none,false,true,0⟩,⟨3,0,false,some (.own 0),some 1,none,false,true,0⟩],[⟨1,0,false,some (.own 1),some 3,none,false,true,0⟩],[⟨1,0,false,none,some 3,none,false,false,1⟩],[⟨2,0,false,some (.own 1),some 3,none,false,true,0⟩],[⟨2,0,false,some (.own 1),some 2,none,false,true,0⟩],[⟨2,0,false,none,some 3,none,false,false,2⟩],[⟨3,0,false,some (.own 1),some 3,none,false,true,0⟩],[⟨3,0,false,some (.own 1),some 3,none,false,true,0⟩],[⟨3,0,false,some (.own 1),some 2,none,false,true,0⟩],[⟨3,0,false,none,some 3,none,false,false,2⟩],[⟨3,0,false,none,some 3,none,false,false,2⟩],[⟨3,0,false,none,some 3,none,false,false,2⟩],[⟨3,0,false,none,some 3,none,false,false,2⟩],[⟨3,0,false,none,some 3,none,false,false,2⟩],[⟨3,0,false,none,some 3,none,false,false,2⟩],[⟨3,0,false,none,some 3,none,false,false,2⟩],[],[],[],[],[],[]]
theorem html_entityt_closed4true : closed emb4_rowst html_entityt_tab4true (EA.start html_M html_entityt 4) (EA.succ html_M html_entityt (4, true)) (EA.eofOk html_M html_entityt (4, true)) = true := by
  decide +kernel
def html_entityt_C4true : MCert html_M html_entityt (4, true) := ⟨emb4_Dt, html_entityt_tab4true, html_entityt_closed4true, (fun _ => ⟨by decide +kernel, by decide +kernel, by decide +kernel⟩)⟩
theorem html_entityt_certs : ∀ u ∈ html_entityt.use, Nonempty (MCert html_M html_entityt u) :=
  (List.forall_mem_cons.mpr ⟨⟨html_entityt_C5false⟩,
  (List.forall_mem_cons.mpr ⟨⟨html_entityt_C3true⟩,
  (List.forall_mem_cons.mpr ⟨⟨html_entityt_C4true⟩,
  (fun _ h => nomatch h)⟩)⟩)⟩)

theorem metapostWithTex_m0 : Emb.MetapostWithTex.mptex_tex_line.mach = ⟨emb21_nfa, [.none,.cb 1,.none,.cb 1,.cb 1], true⟩ := by decide +kernel
theorem metapostWithTex_m1 : Emb.MetapostWithTex.mptex_line.mach = ⟨emb22_nfa, [.call 0,.cb 0,.none,.none,.cb 0,.cb 0], true⟩ := by decide +kernel
theorem metapostWithTex_m2 : Emb.MetapostWithTex.mptex_tex_entity.mach = ⟨emb23_nfa, [.none,.ecb 1,.ecb 1,.none], true⟩ := by decide +kernel
theorem metapostWithTex_m3 : Emb.MetapostWithTex.mptex_entity.mach = ⟨emb24_nfa, [.call 2,.ecb 0,.ecb 0,.none], true⟩ := by decide +kernel

/-- The machines of `Emb.MetapostWithTex.parser`, with their automata as literals. -/
def metapostWithTex_M : Multi := ⟨Emb.MetapostWithTex.parser.sws, [
  ⟨emb21_nfa, [.none,.cb 1,.none,.cb 1,.cb 1], true⟩,
  ⟨emb22_nfa, [.call 0,.cb 0,.none,.none,.cb 0,.cb 0], true⟩,
  ⟨emb23_nfa, [.none,.ecb 1,.ecb 1,.none], true⟩,
  ⟨emb24_nfa, [.call 2,.ecb 0,.ecb 0,.none], true⟩]⟩
theorem metapostWithTex_M_eq : Emb.MetapostWithTex.parser.multi = metapostWithTex_M := by
  show Multi.mk _ [Emb.MetapostWithTex.mptex_tex_line.mach, Emb.MetapostWithTex.mptex_line.mach, Emb.MetapostWithTex.mptex_tex_entity.mach, Emb.MetapostWithTex.mptex_entity.mach] = _
  rw [metapostWithTex_m0, metapostWithTex_m1, metapostWithTex_m2, metapostWithTex_m3]; rfl

def metapostWithTex_line : EOpt := ⟨true, false, false, [(1,false),(0,true)], 2⟩
def metapostWithTex_line_tab1false : List (List EA) := [[⟨0,0,false,none,none,none,false,false,0⟩],[⟨1,0,false,some (.own 0),some 1,none,false,true,0⟩,⟨2,0,false,some (.own 0),some 1,none,false,true,0⟩,⟨3,0,false,some (.own 0),some 1,none,false,true,0⟩],[⟨1,0,false,some .newline,none,none,false,false,0⟩],[⟨1,0,false,some .newline,some 4,none,false,false,0⟩],[⟨1,0,true,some (.own 3),some 5,none,true,true,0⟩],[⟨0,1,true,some (.own 3),some 2,some 37,false,true,0⟩],[⟨1,0,false,some (.own 3),some 5,none,false,true,0⟩],[⟨1,0,false,some (.own 3),some 5,none,false,true,0⟩],[⟨2,0,true,some (.own 3),some 5,none,true,true,0⟩,⟨3,0,true,some (.own 3),some 5,none,true,true,0⟩],[⟨2,0,true,some (.own 3),some 5,none,true,true,0⟩,⟨3,0,true,some (.own 3),some 5,none,true,true,0⟩],[⟨1,1,true,some (.own 3),some 2,none,false,true,0⟩,⟨2,1,true,some (.own 3),some 2,none,false,true,0⟩,⟨3,1,true,some (.own 3),some 2,none,false,true,0⟩],[⟨2,0,false,some (.own 3),some 5,none,false,true,0⟩],[⟨2,0,false,some (.own 3),some 5,none,false,true,0⟩],[⟨3,0,true,some (.own 3),some 5,none,true,true,0⟩],[⟨3,0,false,some (.own 3),some 5,none,false,true,0⟩],[⟨3,0,false,some (.own 3),some 5,none,false,true,0⟩],[⟨3,0,false,some (.own 3),some 5,none,false,true,0⟩],[⟨3,0,false,some (.own 3),some 5,none,false,true,0⟩],[⟨3,0,false,some (.own 3),some 5,none,false,true,0⟩],[⟨3,0,false,some (.own 3),some 5,none,false,true,0⟩],[⟨3,0,false,some (.own 3),some 5,none,false,true,0⟩],[⟨3,0,false,some (.own 3),some 5,none,false,true,0⟩],[⟨3,0,false,some (.own 3),some 5,none,false,true,0⟩]]
theorem metapostWithTex_line_closed1false : closed emb22_rows metapostWithTex_line_tab1false (EA.start metapostWithTex_M metapostWithTex_line 1) (EA.succ metapostWithTex_M metapostWithTex_line (1, false)) (EA.eofOk metapostWithTex_M metapostWithTex_line (1, false)) = true := by
  decide +kernel
def metapostWithTex_line_C1false : MCert metapostWithTex_M metapostWithTex_line (1, false) := ⟨emb22_D, metapostWithTex_line_tab1false, metapostWithTex_line_closed1false, (fun h => nomatch h)⟩
def metapostWithTex_line_tab0true : List (List EA) := [[⟨0,0,false,none,none,none,false,false,0⟩],[⟨1,0,false,some (.own 0),some 1,none,false,true,0⟩,⟨2,0,false,some (.own 0),some 1,none,false,true,0⟩,⟨3,0,false,some (.own 0),some 1,none,false,true,0⟩],[⟨1,0,false,some .newline,none,none,false,false,0⟩],[⟨1,0,false,some .newline,some 3,none,false,false,0⟩],[⟨1,0,true,some (.own 3),some 2,none,false,true,0⟩],[⟨1,0,false,some (.own 3),some 4,none,false,true,0⟩],[⟨2,0,true,some (.own 3),some 2,none,false,true,0⟩,⟨3,0,true,some (.own 3),some 2,none,false,true,0⟩],[⟨2,0,false,some (.own 3),some 4,none,false,true,0⟩],[⟨3,0,false,some (.own 3),some 4,none,false,true,0⟩]]
theorem metapostWithTex_line_closed0true : closed emb21_rows metapostWithTex_line_tab0true (EA.start metapostWithTex_M metapostWithTex_line 0) (EA.succ metapostWithTex_M metapostWithTex_line (0, true)) (EA.eofOk metapostWithTex_M metapostWithTex_line (0, true)) = true := by
  decide +kernel
def metapostWithTex_line_C0true : MCert metapostWithTex_M metapostWithTex_line (0, true) := ⟨emb21_D, metapostWithTex_line_tab0true, metapostWithTex_line_closed0true, (fun h => nomatch h)⟩
theorem metapostWithTex_line_certs : ∀ u ∈ metapostWithTex_line.use, Nonempty (MCert metapostWithTex_M metapostWithTex_line u) :=
  (List.forall_mem_cons.mpr ⟨⟨metapostWithTex_line_C1false⟩,
  (List.forall_mem_cons.mpr ⟨⟨metapostWithTex_line_C0true⟩,
  (fun _ h => nomatch h)⟩)⟩)

def metapostWithTex_entity : EOpt := ⟨true, false, false, [(3,false),(2,true)], 2⟩
def metapostWithTex_entity_tab3false : List (List EA) := [[⟨0,0,false,none,none,none,false,false,0⟩],[⟨1,0,false,some (.own 0),some 1,none,false,true,0⟩,⟨2,0,false,some (.own 0),some 1,none,false,true,0⟩,⟨3,0,false,some (.own 0),some 1,none,false,true,0⟩],[⟨1,0,false,some (.own 1),some 2,none,false,true,0⟩],[⟨1,0,false,none,some 3,none,false,false,0⟩],[⟨1,0,false,none,some 3,none,false,false,0⟩],[⟨2,0,false,some (.own 1),some 2,none,false,true,0⟩,⟨3,0,false,some (.own 1),some 2,none,false,true,0⟩],[⟨2,0,false,none,some 3,none,false,false,0⟩],[⟨2,0,false,none,some 3,none,false,false,0⟩],[⟨3,0,false,none,some 3,none,false,false,0⟩],[⟨3,0,false,none,some 3,none,false,false,0⟩],[⟨3,0,false,none,some 3,none,false,false,0⟩],[⟨3,0,false,none,some 3,none,false,false,0⟩],[⟨3,0,false,none,some 3,none,false,false,0⟩],[⟨3,0,false,none,some 3,none,false,false,0⟩],[⟨3,0,false,none,some 3,none,false,false,0⟩],[⟨3,0,false,none,some 3,none,false,false,0⟩],[⟨3,0,false,none,some 3,none,false,false,0⟩]]
theorem metapostWithTex_entity_closed3false : closed emb24_rows metapostWithTex_entity_tab3false (EA.start metapostWithTex_M metapostWithTex_entity 3) (EA.succ metapostWithTex_M metapostWithTex_entity (3, false)) (EA.eofOk metapostWithTex_M metapostWithTex_entity (3, false)) = true := by
  decide +kernel
def metapostWithTex_entity_C3false : MCert metapostWithTex_M metapostWithTex_entity (3, false) := ⟨emb24_D, metapostWithTex_entity_tab3false, metapostWithTex_entity_closed3false, (fun h => nomatch h)⟩
def metapostWithTex_entity_tab2true : List (List EA) := [[⟨0,0,false,none,none,none,false,false,0⟩],[⟨1,0,false,some (.own 0),some 1,none,false,true,0⟩,⟨2,0,false,some (.own 0),some 1,none,false,true,0⟩,⟨3,0,false,some (.own 0),some 1,none,false,true,0⟩],[⟨1,0,false,some (.own 1),some 2,none,false,true,0⟩],[⟨1,0,false,none,some 3,none,false,false,0⟩],[⟨2,0,false,some (.own 1),some 2,none,false,true,0⟩,⟨3,0,false,some (.own 1),some 2,none,false,true,0⟩],[⟨2,0,false,none,some 3,none,false,false,0⟩],[⟨3,0,false,none,some 3,none,false,false,0⟩]]
theorem metapostWithTex_entity_closed2true : closed emb23_rows metapostWithTex_entity_tab2true (EA.start metapostWithTex_M metapostWithTex_entity 2) (EA.succ metapostWithTex_M metapostWithTex_entity (2, true)) (EA.eofOk metapostWithTex_M metapostWithTex_entity (2, true)) = true := by
  decide +kernel
def metapostWithTex_entity_C2true : MCert metapostWithTex_M metapostWithTex_entity (2, true) := ⟨emb23_D, metapostWithTex_entity_tab2true, metapostWithTex_entity_closed2true, (fun h => nomatch h)⟩
theorem metapostWithTex_entity_certs : ∀ u ∈ metapostWithTex_entity.use, Nonempty (MCert metapostWithTex_M metapostWithTex_entity u) :=
  (List.forall_mem_cons.mpr ⟨⟨metapostWithTex_entity_C3false⟩,
  (List.forall_mem_cons.mpr ⟨⟨metapostWithTex_entity_C2true⟩,
  (fun _ h => nomatch h)⟩)⟩)

theorem mxml_m0 : Emb.Mxml.mxml_css_line.mach = ⟨emb6_nfa, [.none,.cb 1,.none,.none,.cb 1,.cb 1], true⟩ := by decide +kernel
theorem mxml_m1 : Emb.Mxml.mxml_as_line.mach = ⟨emb7_nfa, [.none,.cb 2,.none,.none,.cb 2,.cb 2], true⟩ := by decide +kernel
theorem mxml_m2 : Emb.Mxml.mxml_line.mach = ⟨emb8_nfa, [.call 0,.call 1,.cb 0,.none,.none,.cb 0,.cb 0], true⟩ := by decide +kernel
theorem mxml_m3 : Emb.Mxml.mxml_css_entity.mach = ⟨emb9_nfa, [.none,.ecb 1,.ecb 1,.none], true⟩ := by decide +kernel
theorem mxml_m4 : Emb.Mxml.mxml_as_entity.mach = ⟨emb10_nfa, [.none,.ecb 2,.ecb 2,.none], true⟩ := by decide +kernel
theorem mxml_m5 : Emb.Mxml.mxml_entity.mach = ⟨emb11_nfa, [.call 3,.call 4,.ecb 0,.ecb 0,.none], true⟩ := by decide +kernel

/-- The machines of `Emb.Mxml.parser`, with their automata as literals. -/
def mxml_M : Multi := ⟨Emb.Mxml.parser.sws, [
  ⟨emb6_nfa, [.none,.cb 1,.none,.none,.cb 1,.cb 1], true⟩,
  ⟨emb7_nfa, [.none,.cb 2,.none,.none,.cb 2,.cb 2], true⟩,
  ⟨emb8_nfa, [.call 0,.call 1,.cb 0,.none,.none,.cb 0,.cb 0], true⟩,
  ⟨emb9_nfa, [.none,.ecb 1,.ecb 1,.none], true⟩,
  ⟨emb10_nfa, [.none,.ecb 2,.ecb 2,.none], true⟩,
  ⟨emb11_nfa, [.call 3,.call 4,.ecb 0,.ecb 0,.none], true⟩]⟩
theorem mxml_M_eq : Emb.Mxml.parser.multi = mxml_M := by
  show Multi.mk _ [Emb.Mxml.mxml_css_line.mach, Emb.Mxml.mxml_as_line.mach, Emb.Mxml.mxml_line.mach, Emb.Mxml.mxml_css_entity.mach, Emb.Mxml.mxml_as_entity.mach, Emb.Mxml.mxml_entity.mach] = _
  rw [mxml_m0, mxml_m1, mxml_m2, mxml_m3, mxml_m4, mxml_m5]; rfl

def mxml_line : EOpt := ⟨true, false, false, [(2,false),(0,true),(1,true)], 3⟩
def mxml_line_tab2false : List (List EA) := [[⟨0,0,false,none,none,none,false,false,0⟩],[⟨1,0,false,some (.own 0),some 2,none,false,true,0⟩,⟨2,0,false,some (.own 0),some 2,none,false,true,0⟩,⟨3,0,false,some (.own 0),some 2,none,false,true,0⟩],[⟨1,0,false,some .newline,none,none,false,false,0⟩],[⟨1,0,false,some .newline,some 5,none,false,false,0⟩],[⟨1,0,true,some (.own 5),some 6,none,true,true,0⟩],[⟨1,0,true,some (.own 5),some 6,none,true,true,0⟩],[⟨1,0,false,some (.own 5),some 6,none,false,true,0⟩],[⟨2,0,true,some (.own 5),some 6,none,true,true,0⟩,⟨3,0,true,some (.own 5),some 6,none,true,true,0⟩,⟨3,0,true,some .internalNl,some 6,none,true,true,0⟩],[⟨2,0,true,some (.own 5),some 6,none,true,true,0⟩,⟨3,0,true,some (.own 5),some 6,none,true,true,0⟩,⟨3,0,true,some .internalNl,some 6,none,false,true,0⟩,⟨3,0,true,some .internalNl,some 6,none,true,true,0⟩],[⟨2,0,true,some (.own 5),some 6,none,true,true,0⟩,⟨3,0,true,some (.own 5),some 6,none,true,true,0⟩,⟨3,0,true,some .internalNl,some 6,none,false,true,0⟩,⟨3,0,true,some .internalNl,some 6,none,true,true,0⟩],[⟨2,0,true,some (.own 5),some 6,none,true,true,0⟩,⟨3,0,true,some (.own 5),some 6,none,true,true,0⟩,⟨3,0,true,some .internalNl,some 6,none,false,true,0⟩,⟨3,0,true,some .internalNl,some 6,none,true,true,0⟩],[⟨2,0,true,some (.own 5),some 6,none,true,true,0⟩,⟨3,0,true,some (.own 5),some 6,none,true,true,0⟩,⟨3,0,true,some .internalNl,some 6,none,false,true,0⟩,⟨3,0,true,some .internalNl,some 6,none,true,true,0⟩],[⟨2,0,true,some (.own 5),some 6,none,true,true,0⟩,⟨3,0,true,some (.own 5),some 6,none,true,true,0⟩,⟨3,0,true,some .internalNl,some 6,none,false,true,0⟩,⟨3,0,true,some .internalNl,some 6,none,true,true,0⟩],[⟨2,0,true,some (.own 5),some 6,none,true,true,0⟩,⟨3,0,true,some (.own 5),some 6,none,true,true,0⟩,⟨3,0,true,some .internalNl,some 6,none,false,true,0⟩,⟨3,0,true,some .internalNl,some 6,none,true,true,0⟩],[⟨2,0,true,some (.own 5),some 6,none,true,true,0⟩,⟨3,0,true,some (.own 5),some 6,none,true,true,0⟩,⟨3,0,true,some .internalNl,some 6,none,true,true,0⟩],[⟨2,0,true,some (.own 5),some 6,none,true,true,0⟩,⟨3,0,true,some (.own 5),some 6,none,true,true,0⟩,⟨3,0,true,some .internalNl,some 6,none,false,true,0⟩,⟨3,0,true,some .internalNl,some 6,none,true,true,0⟩],[⟨2,0,true,some (.own 5),some 6,none,true,true,0⟩,⟨3,0,true,some (.own 5),some 6,none,true,true,0⟩,⟨3,0,true,some .internalNl,some 6,none,false,true,0⟩,⟨3,0,true,some .internalNl,some 6,none,true,true,0⟩],[⟨2,0,true,some (.own 5),some 6,none,true,true,0⟩,⟨3,0,true,some (.own 5),some 6,none,true,true,0⟩,⟨3,0,true,some .internalNl,some 6,none,false,true,0⟩,⟨3,0,true,some .internalNl,some 6,none,true,true,0⟩],[⟨2,0,true,some (.own 5),some 6,none,true,true,0⟩,⟨3,0,true,some (.own 5),some 6,none,true,true,0⟩,⟨3,0,true,some .internalNl,some 6,none,false,true,0⟩,⟨3,0,true,some .internalNl,some 6,none,true,true,0⟩],[⟨2,0,true,some (.own 5),some 6,none,true,true,0⟩,⟨3,0,true,some (.own 5),some 6,none,true,true,0⟩,⟨3,0,true,some .internalNl,some 6,none,false,true,0⟩,⟨3,0,true,some .internalNl,some 6,none,true,true,0⟩],[⟨2,0,true,some (.own 5),some 6,none,true,true,0⟩,⟨3,0,true,some (.own 5),some 6,none,true,true,0⟩,⟨3,0,true,some .internalNl,some 6,none,false,true,0⟩,⟨3,0,true,some .internalNl,some 6,none,true,true,0⟩],[⟨2,0,false,some (.own 5),some 6,none,false,true,0⟩],[⟨2,0,false,some (.own 5),some 6,none,false,true,0⟩],[⟨3,0,true,some (.own 5),some 6,none,true,true,0⟩,⟨3,0,true,some .internalNl,some 6,none,false,true,0⟩,⟨3,0,true,some .internalNl,some 6,none,true,true,0⟩],[⟨3,0,true,some .internalNl,some 6,none,false,true,0⟩],[⟨3,0,true,some (.own 5),some 6,none,true,true,0⟩,⟨3,0,true,some .internalNl,some 6,none,true,true,0⟩],[⟨3,0,true,some (.own 5),some 6,none,true,true,0⟩,⟨3,0,true,some .internalNl,some 6,none,false,true,0⟩,⟨3,0,true,some .internalNl,some 6,none,true,true,0⟩],[⟨3,0,true,some .internalNl,some 6,none,false,true,0⟩],[⟨3,0,true,some (.own 5),some 6,none,true,true,0⟩,⟨3,0,true,some .internalNl,some 6,none,true,true,0⟩],[⟨3,0,false,some (.own 5),some 6,none,false,true,0⟩],[⟨3,0,false,some (.own 5),some 6,none,false,true,0⟩],[⟨3,0,true,some (.own 5),some 6,none,false,true,0⟩],[⟨3,0,false,some (.own 5),some 6,none,false,true,0⟩],[⟨3,0,true,some (.own 5),some 6,none,false,true,0⟩,⟨3,0,true,some .internalNl,some 6,none,false,true,0⟩],[⟨3,0,true,some (.own 5),some 6,none,false,true,0⟩,⟨3,0,true,some .internalNl,some 6,none,false,true,0⟩],[⟨3,0,true,some (.own 5),some 6,none,false,true,0⟩,⟨3,0,true,some .internalNl,some 6,none,false,true,0⟩],[⟨3,0,true,some (.own 5),some 6,none,false,true,0⟩,⟨3,0,true,some .internalNl,some 6,none,false,true,0⟩],[⟨3,0,true,some (.own 5),some 6,none,false,true,0⟩,⟨3,0,true,some .internalNl,some 6,none,false,true,0⟩],[⟨3,0,true,some (.own 5),some 6,none,false,true,0⟩,⟨3,0,true,some .internalNl,some 6,none,false,true,0⟩],[⟨3,0,true,some (.own 5),some 6,none,false,true,0⟩,⟨3,0,true,some .internalNl,some 6,none,false,true,0⟩],[⟨3,0,false,some (.own 5),some 6,none,false,true,0⟩],[⟨3,0,true,some (.own 5),some 6,none,false,true,0⟩,⟨3,0,true,some .internalNl,some 6,none,false,true,0⟩],[⟨3,0,true,some .internalNl,some 6,none,false,true,0⟩],[⟨3,0,true,some (.own 5),some 6,none,false,true,0⟩,⟨3,0,true,some .internalNl,some 6,none,false,true,0⟩],[⟨3,0,false,some (.own 5),some 6,none,false,true,0⟩],[⟨3,0,false,some (.own 5),some 6,none,false,true,0⟩],[⟨3,0,false,some (.own 5),some 6,none,false,true,0⟩],[⟨3,0,false,some (.own 5),some 6,none,false,true,0⟩],[⟨3,0,false,some (.own 5),some 6,none,false,true,0⟩],[⟨3,0,false,some (.own 5),some 6,none,false,true,0⟩],[⟨3,0,false,some (.own 5),some 6,none,false,true,0⟩],[⟨3,0,false,some (.own 5),some 6,none,false,true,0⟩],[⟨3,0,false,some (.own 5),some 6,none,false,true,0⟩]]
theorem mxml_line_closed2false : closed emb8_rows mxml_line_tab2false (EA.start mxml_M mxml_line 2) (EA.succ mxml_M mxml_line (2, false)) (EA.eofOk mxml_M mxml_line (2, false)) = true := by
  decide +kernel
def mxml_line_C2false : MCert mxml_M mxml_line (2, false) := ⟨emb8_D, mxml_line_tab2false, mxml_line_closed2false, (fun h => nomatch h)⟩
def mxml_line_tab0true : List (List EA) := [[⟨0,0,false,none,none,none,false,false,0⟩],[⟨1,0,false,some (.own 0),some 1,none,false,true,0⟩,⟨2,0,false,some (.own 0),some 1,none,false,true,0⟩,⟨3,0,false,some (.own 0),some 1,none,false,true,0⟩],[⟨1,0,false,some .newline,none,none,false,false,0⟩],[⟨1,0,false,some .newline,some 4,none,false,false,0⟩],[⟨1,0,true,some (.own 9),some 5,none,true,true,0⟩],[⟨1,0,true,some (.own 9),some 5,none,true,true,0⟩],[⟨1,0,false,some (.own 9),some 5,none,false,true,0⟩],[⟨1,0,false,some (.own 9),some 5,none,false,true,0⟩],[⟨2,0,true,some (.own 9),some 5,none,true,true,0⟩,⟨3,0,true,some (.own 9),some 5,none,true,true,0⟩,⟨3,0,true,some .internalNl,some 5,none,true,true,0⟩],[⟨2,0,true,some (.own 9),some 5,none,true,true,0⟩,⟨3,0,true,some (.own 9),some 5,none,true,true,0⟩,⟨3,0,true,some .internalNl,some 5,none,false,true,0⟩,⟨3,0,true,some .internalNl,some 5,none,true,true,0⟩],[⟨2,0,true,some (.own 9),some 5,none,true,true,0⟩,⟨3,0,true,some (.own 9),some 5,none,true,true,0⟩,⟨3,0,true,some .internalNl,some 5,none,false,true,0⟩,⟨3,0,true,some .internalNl,some 5,none,true,true,0⟩],[⟨2,0,true,some (.own 9),some 5,none,true,true,0⟩,⟨3,0,true,some (.own 9),some 5,none,true,true,0⟩,⟨3,0,true,some .internalNl,some 5,none,false,true,0⟩,⟨3,0,true,some .internalNl,some 5,none,true,true,0⟩],[⟨2,0,true,some (.own 9),some 5,none,true,true,0⟩,⟨3,0,true,some (.own 9),some 5,none,true,true,0⟩,⟨3,0,true,some .internalNl,some 5,none,false,true,0⟩,⟨3,0,true,some .internalNl,some 5,none,true,true,0⟩],[⟨2,0,true,some (.own 9),some 5,none,true,true,0⟩,⟨3,0,true,some (.own 9),some 5,none,true,true,0⟩,⟨3,0,true,some .internalNl,some 5,none,false,true,0⟩,⟨3,0,true,some .internalNl,some 5,none,true,true,0⟩],[⟨2,0,true,some (.own 9),some 5,none,true,true,0⟩,⟨3,0,true,some (.own 9),some 5,none,true,true,0⟩,⟨3,0,true,some .internalNl,some 5,none,false,true,0⟩,⟨3,0,true,some .internalNl,some 5,none,true,true,0⟩],[⟨2,0,true,some (.own 9),some 5,none,true,true,0⟩,⟨3,0,true,some (.own 9),some 5,none,true,true,0⟩,⟨3,0,true,some .internalNl,some 5,none,true,true,0⟩],[⟨2,0,true,some (.own 9),some 5,none,true,true,0⟩,⟨3,0,true,some (.own 9),some 5,none,true,true,0⟩,⟨3,0,true,some .internalNl,some 5,none,false,true,0⟩,⟨3,0,true,some .internalNl,some 5,none,true,true,0⟩],[⟨2,0,true,some (.own 9),some 5,none,true,true,0⟩,⟨3,0,true,some (.own 9),some 5,none,true,true,0⟩,⟨3,0,true,some .internalNl,some 5,none,false,true,0⟩,⟨3,0,true,some .internalNl,some 5,none,true,true,0⟩],[⟨2,0,true,some (.own 9),some 5,none,true,true,0⟩,⟨3,0,true,some (.own 9),some 5,none,true,true,0⟩,⟨3,0,true,some .internalNl,some 5,none,false,true,0⟩,⟨3,0,true,some .internalNl,some 5,none,true,true,0⟩],[⟨2,0,true,some (.own 9),some 5,none,true,true,0⟩,⟨3,0,true,some (.own 9),some 5,none,true,true,0⟩,⟨3,0,true,some .internalNl,some 5,none,false,true,0⟩,⟨3,0,true,some .internalNl,some 5,none,true,true,0⟩],[⟨2,0,true,some (.own 9),some 5,none,true,true,0⟩,⟨3,0,true,some (.own 9),some 5,none,true,true,0⟩,⟨3,0,true,some .internalNl,some 5,none,false,true,0⟩,⟨3,0,true,some .internalNl,some 5,none,true,true,0⟩],[⟨2,0,true,some (.own 9),some 5,none,true,true,0⟩,⟨3,0,true,some (.own 9),some 5,none,true,true,0⟩,⟨3,0,true,some .internalNl,some 5,none,false,true,0⟩,⟨3,0,true,some .internalNl,some 5,none,true,true,0⟩],[⟨2,0,true,some (.own 9),some 5,none,false,true,0⟩],[⟨2,0,false,some (.own 9),some 5,none,false,true,0⟩],[⟨3,0,true,some (.own 9),some 5,none,true,true,0⟩,⟨3,0,true,some .internalNl,some 5,none,false,true,0⟩,⟨3,0,true,some .internalNl,some 5,none,true,true,0⟩],[⟨3,0,true,some .internalNl,some 5,none,false,true,0⟩],[⟨3,0,true,some (.own 9),some 5,none,true,true,0⟩,⟨3,0,true,some .internalNl,some 5,none,true,true,0⟩],[⟨3,0,true,some (.own 9),some 5,none,true,true,0⟩,⟨3,0,true,some .internalNl,some 5,none,false,true,0⟩,⟨3,0,true,some .internalNl,some 5,none,true,true,0⟩],[⟨3,0,true,some .internalNl,some 5,none,false,true,0⟩],[⟨3,0,true,some (.own 9),some 5,none,true,true,0⟩,⟨3,0,true,some .internalNl,some 5,none,true,true,0⟩],[⟨3,0,true,some (.own 9),some 5,none,false,true,0⟩,⟨3,0,true,some .internalNl,some 5,none,false,true,0⟩],[⟨3,0,true,some (.own 9),some 5,none,false,true,0⟩,⟨3,0,true,some .internalNl,some 5,none,false,true,0⟩],[⟨3,0,true,some (.own 9),some 5,none,false,true,0⟩,⟨3,0,true,some .internalNl,some 5,none,false,true,0⟩],[⟨3,0,true,some (.own 9),some 5,none,false,true,0⟩,⟨3,0,true,some .internalNl,some 5,none,false,true,0⟩],[⟨3,0,true,some (.own 9),some 5,none,false,true,0⟩,⟨3,0,true,some .internalNl,some 5,none,false,true,0⟩],[⟨3,0,true,some (.own 9),some 5,none,false,true,0⟩,⟨3,0,true,some .internalNl,some 5,none,false,true,0⟩],[⟨3,0,true,some (.own 9),some 5,none,false,true,0⟩,⟨3,0,true,some .internalNl,some 5,none,false,true,0⟩],[⟨3,0,false,some (.own 9),some 5,none,false,true,0⟩],[⟨3,0,true,some (.own 9),some 5,none,false,true,0⟩,⟨3,0,true,some .internalNl,some 5,none,false,true,0⟩],[⟨3,0,true,some .internalNl,some 5,none,false,true,0⟩],[⟨3,0,false,some (.own 9),some 5,none,false,true,0⟩],[⟨3,0,false,some (.own 9),some 5,none,false,true,0⟩],[⟨3,0,false,some (.own 9),some 5,none,false,true,0⟩],[⟨3,0,false,some (.own 9),some 5,none,false,true,0⟩],[⟨3,0,false,some (.own 9),some 5,none,false,true,0⟩],[⟨3,0,false,some (.own 9),some 5,none,false,true,0⟩],[⟨3,0,false,some (.own 9),some 5,none,false,true,0⟩]]
theorem mxml_line_closed0true : closed emb6_rows mxml_line_tab0true (EA.start mxml_M mxml_line 0) (EA.succ mxml_M mxml_line (0, true)) (EA.eofOk mxml_M mxml_line (0, true)) = true := by
  decide +kernel
def mxml_line_C0true : MCert mxml_M mxml_line (0, true) := ⟨emb6_D, mxml_line_tab0true, mxml_line_closed0true, (fun h => nomatch h)⟩
def mxml_line_tab1true : List (List EA) := [[⟨0,0,false,none,none,none,false,false,0⟩],[⟨1,0,false,some (.own 0),some 1,none,false,true,0⟩,⟨2,0,false,some (.own 0),some 1,none,false,true,0⟩,⟨3,0,false,some (.own 0),some 1,none,false,true,0⟩],[⟨1,0,false,some .newline,none,none,false,false,0⟩],[⟨1,0,false,some .newline,some 4,none,false,false,0⟩],[⟨1,0,true,some (.own 3),some 5,none,true,true,0⟩],[⟨1,0,true,some (.own 3),some 5,none,true,true,0⟩],[⟨1,0,false,some (.own 3),some 5,none,false,true,0⟩],[⟨1,0,false,some (.own 3),some 5,none,false,true,0⟩],[⟨2,0,true,some (.own 3),some 5,none,true,true,0⟩,⟨3,0,true,some (.own 3),some 5,none,true,true,0⟩],[⟨2,0,true,some (.own 3),some 5,none,true,true,0⟩,⟨3,0,true,some (.own 3),some 5,none,true,true,0⟩],[⟨2,0,true,some (.own 3),some 5,none,true,true,0⟩,⟨3,0,true,some (.own 3),some 5,none,true,true,0⟩],[⟨2,0,true,some (.own 3),some 5,none,true,true,0⟩,⟨3,0,true,some (.own 3),some 5,none,true,true,0⟩],[⟨2,0,true,some (.own 3),some 5,none,false,true,0⟩],[⟨2,0,true,some (.own 3),some 2,none,false,true,0⟩],[⟨2,0,false,some (.own 3),some 5,none,false,true,0⟩],[⟨2,0,false,some (.own 3),some 5,none,false,true,0⟩],[⟨3,0,true,some (.own 3),some 5,none,true,true,0⟩],[⟨3,0,true,some (.own 3),some 5,none,true,true,0⟩],[⟨3,0,true,some (.own 3),some 5,none,false,true,0⟩,⟨3,0,true,some .internalNl,some 5,none,false,true,0⟩],[⟨3,0,true,some (.own 3),some 5,none,false,true,0⟩,⟨3,0,true,some .internalNl,some 5,none,false,true,0⟩],[⟨3,0,true,some (.own 3),some 5,none,false,true,0⟩,⟨3,0,true,some .internalNl,some 5,none,false,true,0⟩],[⟨3,0,true,some (.own 3),some 5,none,false,true,0⟩,⟨3,0,true,some .internalNl,some 5,none,false,true,0⟩],[⟨3,0,true,some (.own 3),some 5,none,false,true,0⟩,⟨3,0,true,some .internalNl,some 5,none,false,true,0⟩],[⟨3,0,true,some (.own 3),some 5,none,false,true,0⟩,⟨3,0,true,some .internalNl,some 5,none,false,true,0⟩],[⟨3,0,true,some (.own 3),some 5,none,false,true,0⟩,⟨3,0,true,some .internalNl,some 5,none,false,true,0⟩],[⟨3,0,true,some (.own 3),some 2,none,false,true,0⟩],[⟨3,0,false,some (.own 3),some 5,none,false,true,0⟩],[⟨3,0,false,some (.own 3),some 5,none,false,true,0⟩],[⟨3,0,true,some (.own 3),some 5,none,false,true,0⟩,⟨3,0,true,some .internalNl,some 5,none,false,true,0⟩],[⟨3,0,true,some .internalNl,some 5,none,false,true,0⟩],[⟨3,0,false,some (.own 3),some 5,none,false,true,0⟩],[⟨3,0,false,some (.own 3),some 5,none,false,true,0⟩],[⟨3,0,false,some (.own 3),some 5,none,false,true,0⟩],[⟨3,0,false,some (.own 3),some 5,none,false,true,0⟩],[⟨3,0,false,some (.own 3),some 5,none,false,true,0⟩],[⟨3,0,false,some (.own 3),some 5,none,false,true,0⟩],[⟨3,0,false,some (.own 3),some 5,none,false,true,0⟩],[⟨3,0,false,some (.own 3),some 5,none,false,true,0⟩],[⟨3,0,false,some (.own 3),some 5,none,false,true,0⟩],[⟨3,0,false,some (.own 3),some 5,none,false,true,0⟩],[⟨3,0,true,some (.own 3),some 5,none,true,true,0⟩],[⟨3,0,false,some (.own 3),some 5,none,false,true,0⟩],[⟨3,0,true,some (.own 3),some 5,none,true,true,0⟩,⟨3,0,true,some .internalNl,some 5,none,true,true,0⟩],[⟨3,0,true,some (.own 3),some 5,none,true,true,0⟩,⟨3,0,true,some .internalNl,some 5,none,false,true,0⟩,⟨3,0,true,some .internalNl,some 5,none,true,true,0⟩],[⟨3,0,true,some (.own 3),some 5,none,true,true,0⟩,⟨3,0,true,some .internalNl,some 5,none,false,true,0⟩,⟨3,0,true,some .internalNl,some 5,none,true,true,0⟩],[⟨3,0,true,some (.own 3),some 5,none,true,true,0⟩,⟨3,0,true,some .internalNl,some 5,none,false,true,0⟩,⟨3,0,true,some .internalNl,some 5,none,true,true,0⟩],[⟨3,0,true,some (.own 3),some 5,none,true,true,0⟩,⟨3,0,true,some .internalNl,some 5,none,false,true,0⟩,⟨3,0,true,some .internalNl,some 5,none,true,true,0⟩],[⟨3,0,true,some (.own 3),some 5,none,true,true,0⟩,⟨3,0,true,some .internalNl,some 5,none,false,true,0⟩,⟨3,0,true,some .internalNl,some 5,none,true,true,0⟩],[⟨3,0,true,some (.own 3),some 5,none,true,true,0⟩,⟨3,0,true,some .internalNl,some 5,none,true,true,0⟩],[⟨3,0,false,some (.own 3),some 5,none,false,true,0⟩],[⟨3,0,true,some (.own 3),some 5,none,true,true,0⟩,⟨3,0,true,some .internalNl,some 5,none,false,true,0⟩,⟨3,0,true,some .internalNl,some 5,none,true,true,0⟩],[⟨3,0,true,some .internalNl,some 5,none,false,true,0⟩],[⟨3,0,true,some (.own 3),some 5,none,true,true,0⟩,⟨3,0,true,some .internalNl,some 5,none,true,true,0⟩],[⟨3,0,false,some (.own 3),some 5,none,false,true,0⟩]]
theorem mxml_line_closed1true : closed emb7_rows mxml_line_tab1true (EA.start mxml_M mxml_line 1) (EA.succ mxml_M mxml_line (1, true)) (EA.eofOk mxml_M mxml_line (1, true)) = true := by
  decide +kernel
def mxml_line_C1true : MCert mxml_M mxml_line (1, true) := ⟨emb7_D, mxml_line_tab1true, mxml_line_closed1true, (fun h => nomatch h)⟩
theorem mxml_line_certs : ∀ u ∈ mxml_line.use, Nonempty (MCert mxml_M mxml_line u) :=
  (List.forall_mem_cons.mpr ⟨⟨mxml_line_C2false⟩,
  (List.forall_mem_cons.mpr ⟨⟨mxml_line_C0true⟩,
  (List.forall_mem_cons.mpr ⟨⟨mxml_line_C1true⟩,
  (fun _ h => nomatch h)⟩)⟩)⟩)

def mxml_entity : EOpt := ⟨true, false, false, [(5,false),(3,true),(4,true)], 3⟩
def mxml_entity_tab5false : List (List EA) := [[⟨0,0,false,none,none,none,false,false,0⟩],[⟨1,0,false,some (.own 0),some 2,none,false,true,0⟩,⟨2,0,false,some (.own 0),some 2,none,false,true,0⟩,⟨3,0,false,some (.own 0),some 2,none,false,true,0⟩],[⟨1,0,false,some (.own 1),some 4,none,false,true,0⟩],[⟨2,0,false,some (.own 1),some 4,none,false,true,0⟩],[⟨2,0,false,some (.own 1),some 4,none,false,true,0⟩],[⟨3,0,false,some (.own 1),some 4,none,false,true,0⟩],[⟨3,0,false,some (.own 1),some 4,none,false,true,0⟩],[⟨3,0,false,some (.own 1),some 4,none,false,true,0⟩],[⟨3,0,false,some (.own 1),some 4,none,false,true,0⟩],[⟨3,0,false,some (.own 1),some 4,none,false,true,0⟩],[⟨3,0,false,some (.own 1),some 4,none,false,true,0⟩],[⟨3,0,false,some (.own 1),some 4,none,false,true,0⟩],[⟨3,0,false,some (.own 1),some 4,none,false,true,0⟩],[⟨3,0,false,some (.own 1),some 4,none,false,true,0⟩],[⟨3,0,false,some (.own 1),some 4,none,false,true,0⟩],[⟨3,0,false,some (.own 1),some 4,none,false,true,0⟩],[⟨3,0,false,some (.own 1),some 4,none,false,true,0⟩],[⟨3,0,false,some (.own 1),some 4,none,false,true,0⟩],[⟨3,0,false,some (.own 1),some 4,none,false,true,0⟩],[⟨3,0,false,some (.own 1),some 4,none,false,true,0⟩],[⟨3,0,false,some (.own 1),some 4,none,false,true,0⟩],[⟨3,0,false,some (.own 1),some 4,none,false,true,0⟩]]
theorem mxml_entity_closed5false : closed emb11_rows mxml_entity_tab5false (EA.start mxml_M mxml_entity 5) (EA.succ mxml_M mxml_entity (5, false)) (EA.eofOk mxml_M mxml_entity (5, false)) = true := by
  decide +kernel
def mxml_entity_C5false : MCert mxml_M mxml_entity (5, false) := ⟨emb11_D, mxml_entity_tab5false, mxml_entity_closed5false, (fun h => nomatch h)⟩
def mxml_entity_tab3true : List (List EA) := [[⟨0,0,false,none,none,none,false,false,0⟩],[⟨1,0,false,some (.own 0),some 1,none,false,true,0⟩,⟨2,0,false,some (.own 0),some 1,none,false,true,0⟩,⟨3,0,false,some (.own 0),some 1,none,false,true,0⟩],[⟨1,0,false,some (.own 1),some 3,none,false,true,0⟩],[⟨1,0,false,none,some 3,none,false,false,0⟩],[⟨2,0,false,some (.own 1),some 3,none,false,true,0⟩],[⟨2,0,false,none,some 3,none,false,false,0⟩],[⟨3,0,false,some (.own 1),some 3,none,false,true,0⟩],[⟨3,0,false,some (.own 1),some 3,none,false,true,0⟩],[⟨3,0,false,none,some 3,none,false,false,0⟩],[⟨3,0,false,none,some 3,none,false,false,0⟩],[⟨3,0,false,none,some 3,none,false,false,0⟩],[⟨3,0,false,none,some 3,none,false,false,0⟩],[⟨3,0,false,none,some 3,none,false,false,0⟩],[⟨3,0,false,none,some 3,none,false,false,0⟩],[⟨3,0,false,none,some 3,none,false,false,0⟩],[⟨3,0,false,none,some 3,none,false,false,0⟩]]
theorem mxml_entity_closed3true : closed emb9_rows mxml_entity_tab3true (EA.start mxml_M mxml_entity 3) (EA.succ mxml_M mxml_entity (3, true)) (EA.eofOk mxml_M mxml_entity (3, true)) = true := by
  decide +kernel
def mxml_entity_C3true : MCert mxml_M mxml_entity (3, true) := ⟨emb9_D, mxml_entity_tab3true, mxml_entity_closed3true, (fun h => nomatch h)⟩
def mxml_entity_tab4true : List (List EA) := [[⟨0,0,false,none,none,none,false,false,0⟩],[⟨1,0,false,some (.own 0),some 1,none,false,true,0⟩,⟨2,0,false,some (.own 0),some 1,none,false,true,0⟩,⟨3,0,false,some (.own 0),some 1,none,false,true,0⟩],[⟨1,0,false,some (.own 1),some 3,none,false,true,0⟩],[⟨1,0,false,none,some 3,none,false,false,0⟩],[⟨2,0,false,some (.own 1),some 3,none,false,true,0⟩],[⟨2,0,false,some (.own 1),some 2,none,false,true,0⟩],[⟨2,0,false,none,some 3,none,false,false,0⟩],[⟨3,0,false,some (.own 1),some 3,none,false,true,0⟩],[⟨3,0,false,some (.own 1),some 3,none,false,true,0⟩],[⟨3,0,false,some (.own 1),some 2,none,false,true,0⟩],[⟨3,0,false,none,some 3,none,false,false,0⟩],[⟨3,0,false,none,some 3,none,false,false,0⟩],[⟨3,0,false,none,some 3,none,false,false,0⟩],[⟨3,0,false,none,some 3,none,false,false,0⟩],[⟨3,0,false,none,some 3,none,false,false,0⟩],[⟨3,0,false,none,some 3,none,false,false,0⟩],[⟨3,0,false,none,some 3,none,false,false,0⟩],[⟨3,0,false,none,some 3,none,false,false,0⟩],[⟨3,0,false,none,some 3,none,false,false,0⟩]]
theorem mxml_entity_closed4true : closed emb10_rows mxml_entity_tab4true (EA.start mxml_M mxml_entity 4) (EA.succ mxml_M mxml_entity (4, true)) (EA.eofOk mxml_M mxml_entity (4, true)) = true := by
  decide +kernel
def mxml_entity_C4true : MCert mxml_M mxml_entity (4, true) := ⟨emb10_D, mxml_entity_tab4true, mxml_entity_closed4true, (fun h => nomatch h)⟩
theorem mxml_entity_certs : ∀ u ∈ mxml_entity.use, Nonempty (MCert mxml_M mxml_entity u) :=
  (List.forall_mem_cons.mpr ⟨⟨mxml_entity_C5false⟩,
  (List.forall_mem_cons.mpr ⟨⟨mxml_entity_C3true⟩,
  (List.forall_mem_cons.mpr ⟨⟨mxml_entity_C4true⟩,
  (fun _ h => nomatch h)⟩)⟩)⟩)

theorem phphtml_m0 : Emb.Phphtml.phtml_comment.mach = ⟨emb32_nfa, [.none], false⟩ := by decide +kernel
theorem phphtml_m1 : Emb.Phphtml.phtml_sq_str.mach = ⟨emb33_nfa, [.none], false⟩ := by decide +kernel
theorem phphtml_m2 : Emb.Phphtml.phtml_dq_str.mach = ⟨emb34_nfa, [.none], false⟩ := by decide +kernel
theorem phphtml_m3 : Emb.Phphtml.phtml_css_line.mach = ⟨emb0_nfa, [.none,.cb 1,.none,.none,.cb 1,.cb 1], true⟩ := by decide +kernel
theorem phphtml_m4 : Emb.Phphtml.phtml_js_line.mach = ⟨emb1_nfa, [.none,.cb 2,.none,.none,.cb 2,.cb 2], true⟩ := by decide +kernel
theorem phphtml_m5 : Emb.Phphtml.phtml_php_line.mach = ⟨emb35_nfa, [.none,.cb 3,.none,.none,.cb 3,.cb 3], true⟩ := by decide +kernel
theorem phphtml_m6 : Emb.Phphtml.phtml_line.mach = ⟨emb36_nfa, [.call 3,.call 4,.call 5,.cb 0,.goto 0,.goto 1,.goto 2,.cb 0,.cb 0], true⟩ := by decide +kernel
theorem phphtml_m7 : Emb.Phphtml.phtml_css_entity.mach = ⟨emb3_nfa, [.none,.ecb 1,.ecb 1,.none], true⟩ := by decide +kernel
theorem phphtml_m8 : Emb.Phphtml.phtml_js_entity.mach = ⟨emb4_nfa, [.none,.ecb 2,.ecb 2,.none], true⟩ := by decide +kernel
theorem phphtml_m9 : Emb.Phphtml.phtml_php_entity.mach = ⟨emb37_nfa, [.none,.ecb 3,.ecb 3,.none], true⟩ := by decide +kernel
theorem phphtml_m10 : Emb.Phphtml.phtml_entity.mach = ⟨emb38_nfa, [.call 7,.call 8,.call 9,.ecb 0,.ecb 0,.none], true⟩ := by decide +kernel

/-- The machines of `Emb.Phphtml.parser`, with their automata as literals. -/
def phphtml_M : Multi := ⟨Emb.Phphtml.parser.sws, [
  ⟨emb32_nfa, [.none], false⟩,
  ⟨emb33_nfa, [.none], false⟩,
  ⟨emb34_nfa, [.none], false⟩,
  ⟨emb0_nfa, [.none,.cb 1,.none,.none,.cb 1,.cb 1], true⟩,
  ⟨emb1_nfa, [.none,.cb 2,.none,.none,.cb 2,.cb 2], true⟩,
  ⟨emb35_nfa, [.none,.cb 3,.none,.none,.cb 3,.cb 3], true⟩,
  ⟨emb36_nfa, [.call 3,.call 4,.call 5,.cb 0,.goto 0,.goto 1,.goto 2,.cb 0,.cb 0], true⟩,
  ⟨emb3_nfa, [.none,.ecb 1,.ecb 1,.none], true⟩,
  ⟨emb4_nfa, [.none,.ecb 2,.ecb 2,.none], true⟩,
  ⟨emb37_nfa, [.none,.ecb 3,.ecb 3,.none], true⟩,
  ⟨emb38_nfa, [.call 7,.call 8,.call 9,.ecb 0,.ecb 0,.none], true⟩]⟩
theorem phphtml_M_eq : Emb.Phphtml.parser.multi = phphtml_M := by
  show Multi.mk _ [Emb.Phphtml.phtml_comment.mach, Emb.Phphtml.phtml_sq_str.mach, Emb.Phphtml.phtml_dq_str.mach, Emb.Phphtml.phtml_css_line.mach, Emb.Phphtml.phtml_js_line.mach, Emb.Phphtml.phtml_php_line.mach, Emb.Phphtml.phtml_line.mach, Emb.Phphtml.phtml_css_entity.mach, Emb.Phphtml.phtml_js_entity.mach, Emb.Phphtml.phtml_php_entity.mach, Emb.Phphtml.phtml_entity.mach] = _
  rw [phphtml_m0, phphtml_m1, phphtml_m2, phphtml_m3, phphtml_m4, phphtml_m5, phphtml_m6, phphtml_m7, phphtml_m8, phphtml_m9, phphtml_m10]; rfl

def phphtml_line : EOpt := ⟨false, false, false, [(6,false),(3,true),(4,true),(5,true),(0,false),(1,false),(2,false)], 4⟩
def phphtml_line_tab6false : List (List EA) := [[⟨0,0,false,none,none,none,false,false,0⟩],[⟨1,0,false,some (.own 0),some 3,none,false,true,0⟩,⟨2,0,false,some (.own 0),some 3,none,false,true,0⟩,⟨3,0,false,some (.own 0),some 3,none,false,true,0⟩],[⟨1,0,false,some .newline,none,none,false,false,0⟩],[⟨1,0,false,some .newline,some 7,none,false,false,0⟩],[⟨1,0,false,some (.own 5),some 8,none,false,true,0⟩],[⟨2,0,false,some (.own 5),some 8,none,false,true,0⟩],[⟨2,0,false,some .checkBlank,some 2,none,false,true,0⟩],[⟨2,0,false,some (.own 5),some 8,none,false,true,0⟩],[⟨3,0,false,some (.own 5),some 8,none,false,true,0⟩],[⟨3,0,false,some .checkBlank,some 2,none,false,true,0⟩],[⟨3,0,false,some (.own 5),some 8,none,false,true,0⟩],[⟨3,0,false,some (.own 5),some 8,none,false,true,0⟩],[⟨3,0,false,some .checkBlank,some 2,none,false,true,0⟩],[⟨3,0,false,some (.own 5),some 8,none,false,true,0⟩],[⟨3,0,false,some (.own 5),some 8,none,false,true,0⟩],[⟨3,0,false,some (.own 5),some 8,none,false,true,0⟩],[⟨3,0,false,some (.own 5),some 8,none,false,true,0⟩],[⟨3,0,false,some (.own 5),some 8,none,false,true,0⟩],[⟨3,0,false,some (.own 5),some 8,none,false,true,0⟩],[⟨3,0,false,some (.own 5),some 8,none,false,true,0⟩],[⟨3,0,false,some (.own 5),some 8,none,false,true,0⟩],[⟨3,0,false,some (.own 5),some 8,none,false,true,0⟩],[⟨3,0,false,some (.own 5),some 8,none,false,true,0⟩],[⟨3,0,false,some (.own 5),some 8,none,false,true,0⟩],[⟨3,0,false,some (.own 5),some 8,none,false,true,0⟩],[⟨3,0,false,some (.own 5),some 8,none,false,true,0⟩],[⟨3,0,false,some (.own 5),some 8,none,false,true,0⟩],[⟨3,0,false,some (.own 5),some 8,none,false,true,0⟩],[⟨3,0,false,some (.own 5),some 8,none,false,true,0⟩],[⟨3,0,false,some (.own 5),some 8,none,false,true,0⟩],[⟨3,0,false,some (.own 5),some 8,none,false,true,0⟩],[⟨3,0,false,some (.own 5),some 8,none,false,true,0⟩],[⟨3,0,false,some (.own 5),some 8,none,false,true,0⟩],[⟨3,0,false,some (.own 5),some 8,none,false,true,0⟩],[⟨3,0,false,some (.own 5),some 8,none,false,true,0⟩],[⟨3,0,false,some (.own 5),some 8,none,false,true,0⟩],[⟨3,0,false,some (.own 5),some 8,none,false,true,0⟩],[⟨3,0,false,some (.own 5),some 8,none,false,true,0⟩],[⟨3,0,false,some (.own 5),some 8,none,false,true,0⟩],[⟨3,0,false,some (.own 5),some 8,none,false,true,0⟩],[⟨3,0,false,some (.own 5),some 8,none,false,true,0⟩],[⟨3,0,false,some (.own 5),some 8,none,false,true,0⟩],[⟨3,0,false,some (.own 5),some 8,none,false,true,0⟩],[⟨3,0,false,some (.own 5),some 8,none,false,true,0⟩],[⟨3,0,false,some (.own 5),some 8,none,false,true,0⟩],[⟨3,0,false,some (.own 5),some 8,none,false,true,0⟩],[⟨3,0,false,some (.own 5),some 8,none,false,true,0⟩]]
theorem phphtml_line_closed6false : closed emb36_rows phphtml_line_tab6false (EA.start phphtml_M phphtml_line 6) (EA.succ phphtml_M phphtml_line (6, false)) (EA.eofOk phphtml_M phphtml_line (6, false)) = true := by
  decide +kernel
def phphtml_line_C6false : MCert phphtml_M phphtml_line (6, false) := ⟨emb36_D, phphtml_line_tab6false, phphtml_line_closed6false, (fun h => nomatch h)⟩
def phphtml_line_tab3true : List (List EA) := [[⟨0,0,false,none,none,none,false,false,0⟩],[⟨1,0,false,some (.own 0),some 1,none,false,true,0⟩,⟨2,0,false,some (.own 0),some 1,none,false,true,0⟩,⟨3,0,false,some (.own 0),some 1,none,false,true,0⟩],[⟨1,0,false,some .newline,none,none,false,false,0⟩],[⟨1,0,false,some .newline,some 4,none,false,false,0⟩],[⟨1,0,true,some (.own 9),some 5,none,true,true,0⟩],[⟨1,0,true,some (.own 9),some 5,none,true,true,0⟩],[⟨1,0,false,some (.own 9),some 5,none,false,true,0⟩],[⟨1,0,false,some (.own 9),some 5,none,false,true,0⟩],[⟨2,0,true,some (.own 9),some 5,none,true,true,0⟩,⟨3,0,true,some (.own 9),some 5,none,true,true,0⟩,⟨3,0,true,some .internalNl,some 5,none,true,true,0⟩],[⟨2,0,true,some (.own 9),some 5,none,true,true,0⟩,⟨3,0,true,some (.own 9),some 5,none,true,true,0⟩,⟨3,0,true,some .internalNl,some 5,none,false,true,0⟩,⟨3,0,true,some .internalNl,some 5,none,true,true,0⟩],[⟨2,0,true,some (.own 9),some 5,none,true,true,0⟩,⟨3,0,true,some (.own 9),some 5,none,true,true,0⟩,⟨3,0,true,some .internalNl,some 5,none,false,true,0⟩,⟨3,0,true,some .internalNl,some 5,none,true,true,0⟩],[⟨2,0,true,some (.own 9),some 5,none,true,true,0⟩,⟨3,0,true,some (.own 9),some 5,none,true,true,0⟩,⟨3,0,true,some .internalNl,some 5,none,false,true,0⟩,⟨3,0,true,some .internalNl,some 5,none,true,true,0⟩],[⟨2,0,true,some (.own 9),some 5,none,true,true,0⟩,⟨3,0,true,some (.own 9),some 5,none,true,true,0⟩,⟨3,0,true,some .internalNl,some 5,none,false,true,0⟩,⟨3,0,true,some .internalNl,some 5,none,true,true,0⟩],[⟨2,0,true,some (.own 9),some 5,none,true,true,0⟩,⟨3,0,true,some (.own 9),some 5,none,true,true,0⟩,⟨3,0,true,some .internalNl,some 5,none,false,true,0⟩,⟨3,0,true,some .internalNl,some 5,none,true,true,0⟩],[⟨2,0,true,some (.own 9),some 5,none,true,true,0⟩,⟨3,0,true,some (.own 9),some 5,none,true,true,0⟩,⟨3,0,true,some .internalNl,some 5,none,false,true,0⟩,⟨3,0,true,some .internalNl,some 5,none,true,true,0⟩],[⟨2,0,true,some (.own 9),some 5,none,true,true,0⟩,⟨3,0,true,some (.own 9),some 5,none,true,true,0⟩,⟨3,0,true,some .internalNl,some 5,none,true,true,0⟩],[⟨2,0,true,some (.own 9),some 5,none,true,true,0⟩,⟨3,0,true,some (.own 9),some 5,none,true,true,0⟩,⟨3,0,true,some .internalNl,some 5,none,false,true,0⟩,⟨3,0,true,some .internalNl,some 5,none,true,true,0⟩],[⟨2,0,true,some (.own 9),some 5,none,true,true,0⟩,⟨3,0,true,some (.own 9),some 5,none,true,true,0⟩,⟨3,0,true,some .internalNl,some 5,none,false,true,0⟩,⟨3,0,true,some .internalNl,some 5,none,true,true,0⟩],[⟨2,0,true,some (.own 9),some 5,none,true,true,0⟩,⟨3,0,true,some (.own 9),some 5,none,true,true,0⟩,⟨3,0,true,some .internalNl,some 5,none,false,true,0⟩,⟨3,0,true,some .internalNl,some 5,none,true,true,0⟩],[⟨2,0,true,some (.own 9),some 5,none,true,true,0⟩,⟨3,0,true,some (.own 9),some 5,none,true,true,0⟩,⟨3,0,true,some .internalNl,some 5,none,false,true,0⟩,⟨3,0,true,some .internalNl,some 5,none,true,true,0⟩],[⟨2,0,true,some (.own 9),some 5,none,true,true,0⟩,⟨3,0,true,some (.own 9),some 5,none,true,true,0⟩,⟨3,0,true,some .internalNl,some 5,none,false,true,0⟩,⟨3,0,true,some .internalNl,some 5,none,true,true,0⟩],[⟨2,0,true,some (.own 9),some 5,none,true,true,0⟩,⟨3,0,true,some (.own 9),some 5,none,true,true,0⟩,⟨3,0,true,some .internalNl,some 5,none,false,true,0⟩,⟨3,0,true,some .internalNl,some 5,none,true,true,0⟩],[⟨2,0,true,some (.own 9),some 5,none,false,true,0⟩],[⟨2,0,false,some (.own 9),some 5,none,false,true,0⟩],[⟨3,0,true,some (.own 9),some 5,none,true,true,0⟩,⟨3,0,true,some .internalNl,some 5,none,false,true,0⟩,⟨3,0,true,some .internalNl,some 5,none,true,true,0⟩],[⟨3,0,true,some .internalNl,some 5,none,false,true,0⟩],[⟨3,0,true,some (.own 9),some 5,none,true,true,0⟩,⟨3,0,true,some .internalNl,some 5,none,true,true,0⟩],[⟨3,0,true,some (.own 9),some 5,none,true,true,0⟩,⟨3,0,true,some .internalNl,some 5,none,false,true,0⟩,⟨3,0,true,some .internalNl,some 5,none,true,true,0⟩],[⟨3,0,true,some .internalNl,some 5,none,false,true,0⟩],[⟨3,0,true,some (.own 9),some 5,none,true,true,0⟩,⟨3,0,true,some .internalNl,some 5,none,true,true,0⟩],[⟨3,0,true,some (.own 9),some 5,none,false,true,0⟩,⟨3,0,true,some .internalNl,some 5,none,false,true,0⟩],[⟨3,0,true,some (.own 9),some 5,none,false,true,0⟩,⟨3,0,true,some .internalNl,some 5,none,false,true,0⟩],[⟨3,0,true,some (.own 9),some 5,none,false,true,0⟩,⟨3,0,true,some .internalNl,some 5,none,false,true,0⟩],[⟨3,0,true,some (.own 9),some 5,none,false,true,0⟩,⟨3,0,true,some .internalNl,some 5,none,false,true,0⟩],[⟨3,0,true,some (.own 9),some 5,none,false,true,0⟩,⟨3,0,true,some .internalNl,some 5,none,false,true,0⟩],[⟨3,0,true,some (.own 9),some 5,none,false,true,0⟩,⟨3,0,true,some .internalNl,some 5,none,false,true,0⟩],[⟨3,0,true,some (.own 9),some 5,none,false,true,0⟩,⟨3,0,true,some .internalNl,some 5,none,false,true,0⟩],[⟨3,0,false,some (.own 9),some 5,none,false,true,0⟩],[⟨3,0,true,some (.own 9),some 5,none,false,true,0⟩,⟨3,0,true,some .internalNl,some 5,none,false,true,0⟩],[⟨3,0,true,some .internalNl,some 5,none,false,true,0⟩],[⟨3,0,false,some (.own 9),some 5,none,false,true,0⟩],[⟨3,0,false,some (.own 9),some 5,none,false,true,0⟩],[⟨3,0,false,some (.own 9),some 5,none,false,true,0⟩],[⟨3,0,false,some (.own 9),some 5,none,false,true,0⟩],[⟨3,0,false,some (.own 9),some 5,none,false,true,0⟩,⟨3,0,true,some .internalNl,some 5,none,false,true,0⟩],[⟨3,0,false,some .internalNl,some 5,none,false,true,0⟩,⟨3,0,true,some .internalNl,some 5,none,false,true,0⟩],[⟨3,0,false,some .internalNl,some 5,none,false,true,0⟩,⟨3,0,true,some .internalNl,some 5,none,false,true,0⟩],[⟨3,0,false,some (.own 9),some 5,none,false,true,0⟩,⟨3,0,true,some .internalNl,some 5,none,false,true,0⟩],[⟨3,0,false,some .internalNl,some 5,none,false,true,0⟩,⟨3,0,true,some .internalNl,some 5,none,false,true,0⟩],[⟨3,0,false,some .internalNl,some 5,none,false,true,0⟩,⟨3,0,true,some .internalNl,some 5,none,false,true,0⟩],[⟨3,0,true,some .internalNl,some 5,none,false,true,0⟩]]
theorem phphtml_line_closed3true : closed emb0_rows phphtml_line_tab3true (EA.start phphtml_M phphtml_line 3) (EA.succ phphtml_M phphtml_line (3, true)) (EA.eofOk phphtml_M phphtml_line (3, true)) = true := by
  decide +kernel
def phphtml_line_C3true : MCert phphtml_M phphtml_line (3, true) := ⟨emb0_D, phphtml_line_tab3true, phphtml_line_closed3true, (fun h => nomatch h)⟩
def phphtml_line_tab4true : List (List EA) := [[⟨0,0,false,none,none,none,false,false,0⟩],[⟨1,0,false,some (.own 0),some 1,none,false,true,0⟩,⟨2,0,false,some (.own 0),some 1,none,false,true,0⟩,⟨3,0,false,some (.own 0),some 1,none,false,true,0⟩],[⟨1,0,false,some .newline,none,none,false,false,0⟩],[⟨1,0,false,some .newline,some 4,none,false,false,0⟩],[⟨1,0,true,some (.own 7),some 5,none,true,true,0⟩],[⟨1,0,true,some (.own 7),some 5,none,true,true,0⟩],[⟨1,0,false,some (.own 7),some 5,none,false,true,0⟩],[⟨1,0,false,some (.own 7),some 5,none,false,true,0⟩],[⟨2,0,true,some (.own 7),some 5,none,true,true,0⟩,⟨3,0,true,some (.own 7),some 5,none,true,true,0⟩,⟨3,0,true,some .internalNl,some 5,none,true,true,0⟩],[⟨2,0,true,some (.own 7),some 5,none,true,true,0⟩,⟨3,0,true,some (.own 7),some 5,none,true,true,0⟩,⟨3,0,true,some .internalNl,some 5,none,false,true,0⟩,⟨3,0,true,some .internalNl,some 5,none,true,true,0⟩],[⟨2,0,true,some (.own 7),some 5,none,true,true,0⟩,⟨3,0,true,some (.own 7),some 5,none,true,true,0⟩,⟨3,0,true,some .internalNl,some 5,none,false,true,0⟩,⟨3,0,true,some .internalNl,some 5,none,true,true,0⟩],[⟨2,0,true,some (.own 7),some 5,none,true,true,0⟩,⟨3,0,true,some (.own 7),some 5,none,true,true,0⟩,⟨3,0,true,some .internalNl,some 5,none,true,true,0⟩],[⟨2,0,true,some (.own 7),some 5,none,true,true,0⟩,⟨3,0,true,some (.own 7),some 5,none,true,true,0⟩,⟨3,0,true,some .internalNl,some 5,none,false,true,0⟩,⟨3,0,true,some .internalNl,some 5,none,true,true,0⟩],[⟨2,0,true,some (.own 7),some 5,none,true,true,0⟩,⟨3,0,true,some (.own 7),some 5,none,true,true,0⟩,⟨3,0,true,some .internalNl,some 5,none,false,true,0⟩,⟨3,0,true,some .internalNl,some 5,none,true,true,0⟩],[⟨2,0,false,some (.own 7),some 5,none,false,true,0⟩],[⟨2,0,true,some (.own 7),some 5,none,false,true,0⟩],[⟨2,0,true,some (.own 7),some 2,none,false,true,0⟩],[⟨2,0,false,some (.own 7),some 5,none,false,true,0⟩],[⟨3,0,true,some (.own 7),some 5,none,true,true,0⟩,⟨3,0,true,some .internalNl,some 5,none,true,true,0⟩],[⟨3,0,true,some (.own 7),some 5,none,true,true,0⟩,⟨3,0,true,some .internalNl,some 5,none,false,true,0⟩,⟨3,0,true,some .internalNl,some 5,none,true,true,0⟩],[⟨3,0,true,some (.own 7),some 5,none,true,true,0⟩,⟨3,0,true,some .internalNl,some 5,none,false,true,0⟩,⟨3,0,true,some .internalNl,some 5,none,true,true,0⟩],[⟨3,0,true,some (.own 7),some 5,none,true,true,0⟩,⟨3,0,true,some .internalNl,some 5,none,false,true,0⟩,⟨3,0,true,some .internalNl,some 5,none,true,true,0⟩],[⟨3,0,true,some (.own 7),some 5,none,true,true,0⟩,⟨3,0,true,some .internalNl,some 5,none,false,true,0⟩,⟨3,0,true,some .internalNl,some 5,none,true,true,0⟩],[⟨3,0,true,some (.own 7),some 5,none,true,true,0⟩,⟨3,0,true,some .internalNl,some 5,none,true,true,0⟩],[⟨3,0,true,some (.own 7),some 5,none,true,true,0⟩,⟨3,0,true,some .internalNl,some 5,none,false,true,0⟩,⟨3,0,true,some .internalNl,some 5,none,true,true,0⟩],[⟨3,0,true,some (.own 7),some 5,none,true,true,0⟩,⟨3,0,true,some .internalNl,some 5,none,false,true,0⟩,⟨3,0,true,some .internalNl,some 5,none,true,true,0⟩],[⟨3,0,true,some (.own 7),some 5,none,true,true,0⟩,⟨3,0,true,some .internalNl,some 5,none,false,true,0⟩,⟨3,0,true,some .internalNl,some 5,none,true,true,0⟩],[⟨3,0,true,some (.own 7),some 5,none,true,true,0⟩,⟨3,0,true,some .internalNl,some 5,none,false,true,0⟩,⟨3,0,true,some .internalNl,some 5,none,true,true,0⟩],[⟨3,0,false,some (.own 7),some 5,none,false,true,0⟩],[⟨3,0,false,some (.own 7),some 5,none,false,true,0⟩],[⟨3,0,true,some (.own 7),some 5,none,false,true,0⟩,⟨3,0,true,some .internalNl,some 5,none,false,true,0⟩],[⟨3,0,true,some (.own 7),some 5,none,false,true,0⟩,⟨3,0,true,some .internalNl,some 5,none,false,true,0⟩],[⟨3,0,true,some (.own 7),some 5,none,false,true,0⟩,⟨3,0,true,some .internalNl,some 5,none,false,true,0⟩],[⟨3,0,true,some (.own 7),some 5,none,false,true,0⟩,⟨3,0,true,some .internalNl,some 5,none,false,true,0⟩],[⟨3,0,true,some (.own 7),some 5,none,false,true,0⟩,⟨3,0,true,some .internalNl,some 5,none,false,true,0⟩],[⟨3,0,true,some (.own 7),some 5,none,false,true,0⟩,⟨3,0,true,some .internalNl,some 5,none,false,true,0⟩],[⟨3,0,true,some (.own 7),some 5,none,false,true,0⟩,⟨3,0,true,some .internalNl,some 5,none,false,true,0⟩],[⟨3,0,true,some (.own 7),some 2,none,false,true,0⟩],[⟨3,0,false,some (.own 7),some 5,none,false,true,0⟩],[⟨3,0,true,some (.own 7),some 5,none,true,true,0⟩,⟨3,0,true,some .internalNl,some 5,none,false,true,0⟩,⟨3,0,true,some .internalNl,some 5,none,true,true,0⟩],[⟨3,0,true,some .internalNl,some 5,none,true,true,0⟩],[⟨3,0,true,some (.own 7),some 5,none,true,true,0⟩,⟨3,0,true,some .internalNl,some 5,none,false,true,0⟩,⟨3,0,true,some .internalNl,some 5,none,true,true,0⟩],[⟨3,0,true,some .internalNl,some 5,none,true,true,0⟩],[⟨3,0,false,some (.own 7),some 5,none,false,true,0⟩],[⟨3,0,true,some (.own 7),some 5,none,false,true,0⟩,⟨3,0,true,some .internalNl,some 5,none,false,true,0⟩],[⟨3,0,true,some .internalNl,some 5,none,false,true,0⟩],[⟨3,0,false,some (.own 7),some 5,none,false,true,0⟩],[⟨3,0,false,some (.own 7),some 5,none,false,true,0⟩],[⟨3,0,false,some (.own 7),some 5,none,false,true,0⟩],[⟨3,0,false,some (.own 7),some 5,none,false,true,0⟩],[⟨3,0,false,some (.own 7),some 5,none,false,true,0⟩],[⟨3,0,false,some (.own 7),some 5,none,false,true,0⟩,⟨3,0,true,some .internalNl,some 5,none,false,true,0⟩],[⟨3,0,false,some .internalNl,some 5,none,false,true,0⟩,⟨3,0,true,some .internalNl,some 5,none,false,true,0⟩],[⟨3,0,false,some .internalNl,some 5,none,false,true,0⟩,⟨3,0,true,some .internalNl,some 5,none,false,true,0⟩],[⟨3,0,false,some (.own 7),some 5,none,false,true,0⟩,⟨3,0,true,some .internalNl,some 5,none,false,true,0⟩],[⟨3,0,false,some .internalNl,some 5,none,false,true,0⟩,⟨3,0,true,some .internalNl,some 5,none,false,true,0⟩],[⟨3,0,false,some .internalNl,some 5,none,false,true,0⟩,⟨3,0,true,some .internalNl,some 5,none,false,true,0⟩],[⟨3,0,true,some .internalNl,some 5,none,false,true,0⟩]]
theorem phphtml_line_closed4true : closed emb1_rows phphtml_line_tab4true (EA.start phphtml_M phphtml_line 4) (EA.succ phphtml_M phphtml_line (4, true)) (EA.eofOk phphtml_M phphtml_line (4, true)) = true := by
  decide +kernel
def phphtml_line_C4true : MCert phphtml_M phphtml_line (4, true) := ⟨emb1_D, phphtml_line_tab4true, phphtml_line_closed4true, (fun h => nomatch h)⟩
def phphtml_line_tab5true : List (List EA) := [[⟨0,0,false,none,none,none,false,false,0⟩],[⟨1,0,false,some (.own 0),some 1,none,false,true,0⟩,⟨2,0,false,some (.own 0),some 1,none,false,true,0⟩,⟨3,0,false,some (.own 0),some 1,none,false,true,0⟩],[⟨1,0,false,some .newline,none,none,false,false,0⟩],[⟨1,0,false,some .newline,some 4,none,false,false,0⟩],[⟨1,0,true,some (.own 3),some 5,none,true,true,0⟩],[⟨1,0,true,some (.own 3),some 2,none,false,true,0⟩],[⟨1,0,true,some (.own 3),some 5,none,true,true,0⟩],[⟨1,0,false,some (.own 3),some 5,none,false,true,0⟩],[],[⟨2,0,true,some (.own 3),some 5,none,true,true,0⟩,⟨3,0,true,some (.own 3),some 5,none,true,true,0⟩,⟨3,0,true,some .internalNl,some 5,none,true,true,0⟩],[⟨2,0,true,some (.own 3),some 5,none,true,true,0⟩,⟨3,0,true,some (.own 3),some 5,none,true,true,0⟩,⟨3,0,true,some .internalNl,some 5,none,true,true,0⟩],[⟨2,0,true,some (.own 3),some 5,none,true,true,0⟩,⟨3,0,true,some (.own 3),some 5,none,true,true,0⟩,⟨3,0,true,some .internalNl,some 5,none,false,true,0⟩,⟨3,0,true,some .internalNl,some 5,none,true,true,0⟩],[⟨2,0,true,some (.own 3),some 5,none,true,true,0⟩,⟨3,0,true,some (.own 3),some 5,none,true,true,0⟩,⟨3,0,true,some .internalNl,some 5,none,false,true,0⟩,⟨3,0,true,some .internalNl,some 5,none,true,true,0⟩],[⟨2,0,true,some (.own 3),some 5,none,true,true,0⟩,⟨3,0,true,some (.own 3),some 5,none,true,true,0⟩,⟨3,0,true,some .internalNl,some 5,none,false,true,0⟩,⟨3,0,true,some .internalNl,some 5,none,true,true,0⟩],[⟨2,0,true,some (.own 3),some 5,none,true,true,0⟩,⟨3,0,true,some (.own 3),some 5,none,true,true,0⟩,⟨3,0,true,some .internalNl,some 5,none,false,true,0⟩,⟨3,0,true,some .internalNl,some 5,none,true,true,0⟩],[⟨2,0,true,some (.own 3),some 5,none,true,true,0⟩,⟨3,0,true,some (.own 3),some 5,none,true,true,0⟩,⟨3,0,true,some .internalNl,some 5,none,false,true,0⟩,⟨3,0,true,some .internalNl,some 5,none,true,true,0⟩],[⟨2,0,true,some (.own 3),some 2,none,false,true,0⟩,⟨3,0,true,some (.own 3),some 2,none,false,true,0⟩],[⟨2,0,true,some (.own 3),some 5,none,true,true,0⟩,⟨3,0,true,some (.own 3),some 5,none,true,true,0⟩,⟨3,0,true,some .internalNl,some 5,none,true,true,0⟩],[⟨2,0,true,some (.own 3),some 5,none,true,true,0⟩,⟨3,0,true,some (.own 3),some 5,none,true,true,0⟩,⟨3,0,true,some .internalNl,some 5,none,true,true,0⟩],[⟨2,0,true,some (.own 3),some 5,none,true,true,0⟩,⟨3,0,true,some (.own 3),some 5,none,true,true,0⟩,⟨3,0,true,some .internalNl,some 5,none,false,true,0⟩,⟨3,0,true,some .internalNl,some 5,none,true,true,0⟩],[⟨2,0,true,some (.own 3),some 5,none,true,true,0⟩,⟨3,0,true,some (.own 3),some 5,none,true,true,0⟩,⟨3,0,true,some .internalNl,some 5,none,false,true,0⟩,⟨3,0,true,some .internalNl,some 5,none,true,true,0⟩],[⟨2,0,true,some (.own 3),some 5,none,true,true,0⟩,⟨3,0,true,some (.own 3),some 5,none,true,true,0⟩,⟨3,0,true,some .internalNl,some 5,none,false,true,0⟩,⟨3,0,true,some .internalNl,some 5,none,true,true,0⟩],[⟨2,0,true,some (.own 3),some 5,none,true,true,0⟩,⟨3,0,true,some (.own 3),some 5,none,true,true,0⟩,⟨3,0,true,some .internalNl,some 5,none,false,true,0⟩,⟨3,0,true,some .internalNl,some 5,none,true,true,0⟩],[⟨2,0,true,some (.own 3),some 5,none,true,true,0⟩,⟨3,0,true,some (.own 3),some 5,none,true,true,0⟩,⟨3,0,true,some .internalNl,some 5,none,false,true,0⟩,⟨3,0,true,some .internalNl,some 5,none,true,true,0⟩],[⟨2,0,true,some (.own 3),some 5,none,false,true,0⟩],[⟨2,0,true,some (.own 3),some 2,none,false,true,0⟩],[⟨3,0,true,some (.own 3),some 5,none,true,true,0⟩,⟨3,0,true,some .internalNl,some 5,none,false,true,0⟩,⟨3,0,true,some .internalNl,some 5,none,true,true,0⟩],[⟨3,0,true,some .internalNl,some 5,none,false,true,0⟩],[⟨3,0,true,some (.own 3),some 5,none,true,true,0⟩,⟨3,0,true,some .internalNl,some 5,none,true,true,0⟩],[⟨3,0,true,some (.own 3),some 5,none,true,true,0⟩,⟨3,0,true,some .internalNl,some 5,none,false,true,0⟩,⟨3,0,true,some .internalNl,some 5,none,true,true,0⟩],[⟨3,0,true,some .internalNl,some 5,none,false,true,0⟩],[⟨3,0,true,some (.own 3),some 5,none,true,true,0⟩,⟨3,0,true,some .internalNl,some 5,none,true,true,0⟩],[⟨3,0,true,some (.own 3),some 5,none,false,true,0⟩,⟨3,0,true,some .internalNl,some 5,none,false,true,0⟩],[⟨3,0,true,some (.own 3),some 5,none,false,true,0⟩,⟨3,0,true,some .internalNl,some 5,none,false,true,0⟩],[⟨3,0,true,some (.own 3),some 5,none,false,true,0⟩,⟨3,0,true,some .internalNl,some 5,none,false,true,0⟩],[⟨3,0,true,some (.own 3),some 5,none,false,true,0⟩,⟨3,0,true,some .internalNl,some 5,none,false,true,0⟩],[⟨3,0,true,some (.own 3),some 5,none,false,true,0⟩,⟨3,0,true,some .internalNl,some 5,none,false,true,0⟩],[⟨3,0,true,some (.own 3),some 5,none,false,true,0⟩,⟨3,0,true,some .internalNl,some 5,none,false,true,0⟩],[⟨3,0,true,some (.own 3),some 5,none,false,true,0⟩,⟨3,0,true,some .internalNl,some 5,none,false,true,0⟩],[⟨3,0,true,some (.own 3),some 5,none,false,true,0⟩,⟨3,0,true,some .internalNl,some 5,none,false,true,0⟩],[⟨3,0,true,some .internalNl,some 5,none,false,true,0⟩]]
theorem phphtml_line_closed5true : closed emb35_rows phphtml_line_tab5true (EA.start phphtml_M phphtml_line 5) (EA.succ phphtml_M phphtml_line (5, true)) (EA.eofOk phphtml_M phphtml_line (5, true)) = true := by
  decide +kernel
def phphtml_line_C5true : MCert phphtml_M phphtml_line (5, true) := ⟨emb35_D, phphtml_line_tab5true, phphtml_line_closed5true, (fun h => nomatch h)⟩
def phphtml_line_tab0false : List (List EA) := [[⟨0,0,true,none,none,none,false,false,0⟩],[⟨0,0,true,none,none,none,false,false,0⟩,⟨0,0,true,some .internalNl,none,none,false,true,0⟩],[⟨0,0,true,none,none,none,false,false,0⟩,⟨0,0,true,some .internalNl,none,none,false,true,0⟩],[⟨0,0,true,none,none,none,false,false,0⟩,⟨0,0,true,some .internalNl,none,none,false,true,0⟩],[⟨0,0,true,none,none,none,false,false,0⟩,⟨0,0,true,some .internalNl,none,none,false,true,0⟩],[⟨0,0,true,none,none,none,false,false,0⟩,⟨0,0,true,some .internalNl,none,none,false,true,0⟩],[⟨0,0,true,none,none,none,false,false,0⟩,⟨0,0,true,some .internalNl,none,none,false,true,0⟩],[⟨0,0,true,none,none,none,false,false,0⟩,⟨0,0,true,some .internalNl,none,none,false,true,0⟩],[⟨0,0,true,none,none,none,false,false,0⟩,⟨0,0,true,some .internalNl,none,none,false,true,0⟩],[⟨0,0,true,none,none,none,false,false,0⟩,⟨0,0,true,some .internalNl,none,none,false,true,0⟩],[⟨0,0,true,some .internalNl,none,none,false,true,0⟩],[⟨0,0,true,none,none,none,false,false,0⟩,⟨0,0,true,some .internalNl,none,none,false,true,0⟩],[⟨0,0,true,none,none,none,false,false,0⟩,⟨0,0,true,some .internalNl,none,none,false,true,0⟩],[⟨0,0,true,none,none,none,false,false,0⟩,⟨0,0,true,some .internalNl,none,none,false,true,0⟩],[⟨0,0,true,none,none,none,false,false,0⟩,⟨0,0,true,some .internalNl,none,none,false,true,0⟩],[⟨0,0,true,none,none,none,false,false,0⟩,⟨0,0,true,some .internalNl,none,none,false,true,0⟩],[⟨0,0,true,none,none,none,false,false,0⟩,⟨0,0,true,some .internalNl,none,none,false,true,0⟩],[⟨0,0,true,none,none,none,false,false,0⟩,⟨0,0,true,some .internalNl,none,none,false,true,0⟩],[⟨0,0,true,none,none,none,false,false,0⟩,⟨0,0,true,some .internalNl,none,none,false,true,0⟩],[⟨0,0,true,none,none,none,false,false,0⟩,⟨0,0,true,some .internalNl,none,none,false,true,0⟩],[⟨0,0,true,none,none,none,false,false,0⟩,⟨0,0,true,some .internalNl,none,none,false,true,0⟩],[⟨0,0,true,none,none,none,false,false,0⟩,⟨0,0,true,some .internalNl,none,none,false,true,0⟩],[⟨0,0,true,none,none,none,false,false,0⟩,⟨0,0,true,some .internalNl,none,none,false,true,0⟩],[⟨0,0,true,none,none,none,false,false,0⟩,⟨0,0,true,some .internalNl,none,none,false,true,0⟩,⟨0,0,false,none,none,none,false,false,0⟩],[⟨0,0,true,none,none,none,false,false,0⟩,⟨0,0,true,some .internalNl,none,none,false,true,0⟩,⟨0,0,false,none,none,none,false,false,0⟩],[⟨0,0,true,none,none,none,false,false,0⟩,⟨0,0,true,some .internalNl,none,none,false,true,0⟩,⟨0,0,false,none,none,none,false,false,0⟩],[⟨0,0,true,none,none,none,false,false,0⟩,⟨0,0,true,some .internalNl,none,none,false,true,0⟩,⟨0,0,false,none,none,none,false,false,0⟩],[⟨0,0,true,none,none,none,false,false,0⟩,⟨0,0,true,some .internalNl,none,none,false,true,0⟩,⟨0,0,false,none,none,none,false,false,0⟩],[⟨0,0,true,none,none,none,false,false,0⟩,⟨0,0,true,some .internalNl,none,none,false,true,0⟩,⟨0,0,false,none,none,none,false,false,0⟩],[⟨0,0,true,none,none,none,false,false,0⟩,⟨0,0,true,some .internalNl,none,none,false,true,0⟩,⟨0,0,false,none,none,none,false,false,0⟩],[⟨0,0,true,none,none,none,false,false,0⟩,⟨0,0,true,some .internalNl,none,none,false,true,0⟩,⟨0,0,false,none,none,none,false,false,0⟩],[⟨0,0,true,none,none,none,false,false,0⟩,⟨0,0,true,some .internalNl,none,none,false,true,0⟩,⟨0,0,false,none,none,none,false,false,0⟩],[⟨0,0,true,none,none,none,false,false,0⟩,⟨0,0,true,some .internalNl,none,none,false,true,0⟩,⟨0,0,false,none,none,none,false,false,0⟩],[⟨0,0,true,none,none,none,false,false,0⟩,⟨0,0,true,some .internalNl,none,none,false,true,0⟩],[⟨0,0,true,none,none,none,false,false,0⟩,⟨0,0,true,some .internalNl,none,none,false,true,0⟩,⟨0,0,false,none,none,none,false,false,0⟩],[⟨0,0,true,none,none,none,false,false,0⟩,⟨0,0,true,some .internalNl,none,none,false,true,0⟩,⟨0,0,false,none,none,none,false,false,0⟩],[⟨0,0,true,none,none,none,false,false,0⟩,⟨0,0,true,some .internalNl,none,none,false,true,0⟩,⟨0,0,false,none,none,none,false,false,0⟩],[⟨0,0,true,none,none,none,false,false,0⟩,⟨0,0,true,some .internalNl,none,none,false,true,0⟩,⟨0,0,false,none,none,none,false,false,0⟩],[⟨0,0,true,none,none,none,false,false,0⟩,⟨0,0,true,some .internalNl,none,none,false,true,0⟩,⟨0,0,false,none,none,none,false,false,0⟩],[⟨0,0,true,none,none,none,false,false,0⟩,⟨0,0,true,some .internalNl,none,none,false,true,0⟩,⟨0,0,false,none,none,none,false,false,0⟩],[⟨0,0,true,none,none,none,false,false,0⟩,⟨0,0,true,some .internalNl,none,none,false,true,0⟩,⟨0,0,false,none,none,none,false,false,0⟩],[⟨0,0,true,none,none,none,false,false,0⟩,⟨0,0,true,some .internalNl,none,none,false,true,0⟩,⟨0,0,false,none,none,none,false,false,0⟩],[⟨0,0,true,none,none,none,false,false,0⟩,⟨0,0,true,some .internalNl,none,none,false,true,0⟩],[⟨0,0,true,none,none,none,false,false,0⟩,⟨0,0,true,some .internalNl,none,none,false,true,0⟩],[⟨0,0,true,none,none,none,false,false,0⟩,⟨0,0,true,some .internalNl,none,none,false,true,0⟩],[⟨0,0,true,none,none,none,false,false,0⟩,⟨0,0,true,some .internalNl,none,none,false,true,0⟩],[⟨0,0,true,none,none,none,false,false,0⟩,⟨0,0,true,some .internalNl,none,none,false,true,0⟩],[⟨0,0,true,none,none,none,false,false,0⟩,⟨0,0,true,some .internalNl,none,none,false,true,0⟩],[⟨0,0,true,none,none,none,false,false,0⟩,⟨0,0,true,some .internalNl,none,none,false,true,0⟩],[⟨0,0,true,none,none,none,false,false,0⟩,⟨0,0,true,some .internalNl,none,none,false,true,0⟩],[⟨0,0,true,none,none,none,false,false,0⟩,⟨0,0,true,some .internalNl,none,none,false,true,0⟩],[⟨0,0,true,none,none,none,false,false,0⟩,⟨0,0,true,some .internalNl,none,none,false,true,0⟩],[⟨0,0,true,none,none,none,false,false,0⟩,⟨0,0,true,some .internalNl,none,none,false,true,0⟩],[⟨0,0,true,none,none,none,false,false,0⟩,⟨0,0,true,some .internalNl,none,none,false,true,0⟩],[⟨0,0,true,none,none,none,false,false,0⟩,⟨0,0,true,some .internalNl,none,none,false,true,0⟩],[⟨0,0,true,none,none,none,false,false,0⟩,⟨0,0,true,some .internalNl,none,none,false,true,0⟩],[⟨0,0,true,none,none,none,false,false,0⟩,⟨0,0,true,some .internalNl,none,none,false,true,0⟩],[⟨0,0,true,none,none,none,false,false,0⟩,⟨0,0,true,some .internalNl,none,none,false,true,0⟩],[⟨0,0,true,none,none,none,false,false,0⟩,⟨0,0,true,some .internalNl,none,none,false,true,0⟩],[⟨0,0,true,none,none,none,false,false,0⟩,⟨0,0,true,some .internalNl,none,none,false,true,0⟩],[⟨0,0,true,none,none,none,false,false,0⟩,⟨0,0,true,some .internalNl,none,none,false,true,0⟩],[⟨0,0,true,none,none,none,false,false,0⟩,⟨0,0,true,some .internalNl,none,none,false,true,0⟩],[⟨0,0,true,none,none,none,false,false,0⟩,⟨0,0,true,some .internalNl,none,none,false,true,0⟩],[⟨0,0,true,none,none,none,false,false,0⟩,⟨0,0,true,some .internalNl,none,none,false,true,0⟩],[⟨0,0,true,none,none,none,false,false,0⟩,⟨0,0,true,some .internalNl,none,none,false,true,0⟩],[⟨0,0,true,none,none,none,false,false,0⟩,⟨0,0,true,some .internalNl,none,none,false,true,0⟩],[⟨0,0,true,none,none,none,false,false,0⟩,⟨0,0,true,some .internalNl,none,none,false,true,0⟩],[⟨0,0,true,none,none,none,false,false,0⟩,⟨0,0,true,some .internalNl,none,none,false,true,0⟩],[⟨0,0,true,none,none,none,false,false,0⟩,⟨0,0,true,some .internalNl,none,none,false,true,0⟩],[⟨0,0,true,none,none,none,false,false,0⟩,⟨0,0,true,some .internalNl,none,none,false,true,0⟩],[⟨0,0,true,none,none,none,false,false,0⟩,⟨0,0,true,some .internalNl,none,none,false,true,0⟩],[⟨0,0,true,none,none,none,false,false,0⟩,⟨0,0,true,some .internalNl,none,none,false,true,0⟩],[⟨0,0,true,none,none,none,false,false,0⟩,⟨0,0,true,some .internalNl,none,none,false,true,0⟩],[⟨0,0,true,none,none,none,false,false,0⟩,⟨0,0,true,some .internalNl,none,none,false,true,0⟩],[⟨0,0,true,none,none,none,false,false,0⟩,⟨0,0,true,some .internalNl,none,none,false,true,0⟩],[⟨0,0,true,none,none,none,false,false,0⟩,⟨0,0,true,some .internalNl,none,none,false,true,0⟩],[⟨0,0,true,none,none,none,false,false,0⟩,⟨0,0,true,some .internalNl,none,none,false,true,0⟩],[⟨0,0,true,none,none,none,false,false,0⟩,⟨0,0,true,some .internalNl,none,none,false,true,0⟩],[⟨0,0,true,none,none,none,false,false,0⟩,⟨0,0,true,some .internalNl,none,none,false,true,0⟩],[⟨0,0,true,none,none,none,false,false,0⟩,⟨0,0,true,some .internalNl,none,none,false,true,0⟩],[⟨0,0,true,none,none,none,false,false,0⟩,⟨0,0,true,some .internalNl,none,none,false,true,0⟩],[⟨0,0,true,none,none,none,false,false,0⟩,⟨0,0,true,some .internalNl,none,none,false,true,0⟩],[⟨0,0,true,none,none,none,false,false,0⟩,⟨0,0,true,some .internalNl,none,none,false,true,0⟩],[⟨0,0,true,none,none,none,false,false,0⟩,⟨0,0,true,some .internalNl,none,none,false,true,0⟩],[⟨0,0,true,none,none,none,false,false,0⟩,⟨0,0,true,some .internalNl,none,none,false,true,0⟩],[⟨0,0,true,none,none,none,false,false,0⟩,⟨0,0,true,some .internalNl,none,none,false,true,0⟩],[⟨0,0,true,none,none,none,false,false,0⟩,⟨0,0,true,some .internalNl,none,none,false,true,0⟩],[⟨0,0,true,none,none,none,false,false,0⟩,⟨0,0,true,some .internalNl,none,none,false,true,0⟩],[⟨0,0,true,none,none,none,false,false,0⟩,⟨0,0,true,some .internalNl,none,none,false,true,0⟩],[⟨0,0,true,none,none,none,false,false,0⟩,⟨0,0,true,some .internalNl,none,none,false,true,0⟩],[⟨0,0,true,none,none,none,false,false,0⟩,⟨0,0,true,some .internalNl,none,none,false,true,0⟩],[⟨0,0,true,none,none,none,false,false,0⟩,⟨0,0,true,some .internalNl,none,none,false,true,0⟩],[⟨0,0,false,none,none,none,false,false,0⟩],[⟨0,0,true,none,none,none,false,false,0⟩,⟨0,0,true,some .internalNl,none,none,false,true,0⟩],[⟨0,0,true,none,none,none,false,false,0⟩,⟨0,0,true,some .internalNl,none,none,false,true,0⟩],[⟨0,0,true,none,none,none,false,false,0⟩,⟨0,0,true,some .internalNl,none,none,false,true,0⟩],[⟨0,0,true,none,none,none,false,false,0⟩,⟨0,0,true,some .internalNl,none,none,false,true,0⟩],[⟨0,0,true,none,none,none,false,false,0⟩,⟨0,0,true,some .internalNl,none,none,false,true,0⟩],[⟨0,0,true,none,none,none,false,false,0⟩,⟨0,0,true,some .internalNl,none,none,false,true,0⟩],[⟨0,0,true,none,none,none,false,false,0⟩,⟨0,0,true,some .internalNl,none,none,false,true,0⟩],[⟨0,0,true,none,none,none,false,false,0⟩,⟨0,0,true,some .internalNl,none,none,false,true,0⟩],[⟨0,0,true,none,none,none,false,false,0⟩,⟨0,0,true,some .internalNl,none,none,false,true,0⟩],[⟨0,0,false,none,none,none,false,false,0⟩],[⟨0,0,true,none,none,none,false,false,0⟩],[⟨0,0,false,none,none,none,false,false,0⟩],[⟨0,0,false,none,none,none,false,false,0⟩],[⟨0,0,false,none,none,none,false,false,0⟩],[⟨0,0,false,none,none,none,false,false,0⟩],[⟨0,0,false,none,none,none,false,false,0⟩],[⟨0,0,false,none,none,none,false,false,0⟩],[⟨0,0,false,none,none,none,false,false,0⟩],[⟨0,0,false,none,none,none,false,false,0⟩],[⟨0,0,true,none,none,none,false,false,0⟩],[⟨0,0,false,none,none,none,false,false,0⟩],[⟨0,0,false,none,none,none,false,false,0⟩],[⟨0,0,false,none,none,none,false,false,0⟩],[⟨0,0,false,none,none,none,false,false,0⟩],[⟨0,0,false,none,none,none,false,false,0⟩],[⟨0,0,false,none,none,none,false,false,0⟩],[⟨0,0,false,none,none,none,false,false,0⟩],[⟨0,0,false,none,none,none,false,false,0⟩]]
theorem phphtml_line_closed0false : closed emb32_rows phphtml_line_tab0false (EA.start phphtml_M phphtml_line 0) (EA.succ phphtml_M phphtml_line (0, false)) (EA.eofOk phphtml_M phphtml_line (0, false)) = true := by
  decide +kernel
def phphtml_line_C0false : MCert phphtml_M phphtml_line (0, false) := ⟨emb32_D, phphtml_line_tab0false, phphtml_line_closed0false, (fun h => nomatch h)⟩
def phphtml_line_tab1false : List (List EA) := [[⟨0,0,true,none,none,none,false,false,0⟩],[⟨0,0,true,none,none,none,true,false,0⟩,⟨0,0,true,some .internalNl,none,none,true,true,0⟩],[⟨0,0,true,none,none,none,false,false,0⟩,⟨0,0,true,none,none,none,true,false,0⟩,⟨0,0,true,some .internalNl,none,none,false,true,0⟩,⟨0,0,true,some .internalNl,none,none,true,true,0⟩],[⟨0,0,true,none,none,none,false,false,0⟩,⟨0,0,true,none,none,none,true,false,0⟩,⟨0,0,true,some .internalNl,none,none,false,true,0⟩,⟨0,0,true,some .internalNl,none,none,true,true,0⟩],[⟨0,0,true,none,none,none,false,false,0⟩,⟨0,0,true,none,none,none,true,false,0⟩,⟨0,0,true,some .internalNl,none,none,false,true,0⟩,⟨0,0,true,some .internalNl,none,none,true,true,0⟩],[⟨0,0,true,none,none,none,false,false,0⟩,⟨0,0,true,none,none,none,true,false,0⟩,⟨0,0,true,some .internalNl,none,none,false,true,0⟩,⟨0,0,true,some .internalNl,none,none,true,true,0⟩],[⟨0,0,true,none,none,none,false,false,0⟩,⟨0,0,true,none,none,none,true,false,0⟩,⟨0,0,true,some .internalNl,none,none,false,true,0⟩,⟨0,0,true,some .internalNl,none,none,true,true,0⟩],[⟨0,0,true,none,none,none,false,false,0⟩,⟨0,0,true,none,none,none,true,false,0⟩,⟨0,0,true,some .internalNl,none,none,false,true,0⟩,⟨0,0,true,some .internalNl,none,none,true,true,0⟩],[⟨0,0,true,none,none,none,false,false,0⟩,⟨0,0,true,none,none,none,true,false,0⟩,⟨0,0,true,some .internalNl,none,none,false,true,0⟩,⟨0,0,true,some .internalNl,none,none,true,true,0⟩],[⟨0,0,true,none,none,none,false,false,0⟩,⟨0,0,true,none,none,none,true,false,0⟩,⟨0,0,true,some .internalNl,none,none,false,true,0⟩,⟨0,0,true,some .internalNl,none,none,true,true,0⟩],[⟨0,0,true,some .internalNl,none,none,false,true,0⟩],[⟨0,0,true,none,none,none,true,false,0⟩,⟨0,0,true,some .internalNl,none,none,true,true,0⟩],[⟨0,0,true,none,none,none,false,false,0⟩,⟨0,0,true,none,none,none,true,false,0⟩,⟨0,0,true,some .internalNl,none,none,false,true,0⟩,⟨0,0,true,some .internalNl,none,none,true,true,0⟩],[⟨0,0,true,none,none,none,false,false,0⟩,⟨0,0,true,none,none,none,true,false,0⟩,⟨0,0,true,some .internalNl,none,none,false,true,0⟩,⟨0,0,true,some .internalNl,none,none,true,true,0⟩],[⟨0,0,true,none,none,none,false,false,0⟩,⟨0,0,true,none,none,none,true,false,0⟩,⟨0,0,true,some .internalNl,none,none,false,true,0⟩,⟨0,0,true,some .internalNl,none,none,true,true,0⟩],[⟨0,0,true,none,none,none,false,false,0⟩,⟨0,0,true,none,none,none,true,false,0⟩,⟨0,0,true,some .internalNl,none,none,false,true,0⟩,⟨0,0,true,some .internalNl,none,none,true,true,0⟩],[⟨0,0,true,none,none,none,false,false,0⟩,⟨0,0,true,none,none,none,true,false,0⟩,⟨0,0,true,some .internalNl,none,none,false,true,0⟩,⟨0,0,true,some .internalNl,none,none,true,true,0⟩],[],[⟨0,0,true,none,none,none,false,false,0⟩,⟨0,0,true,none,none,none,true,false,0⟩,⟨0,0,true,some .internalNl,none,none,false,true,0⟩,⟨0,0,true,some .internalNl,none,none,true,true,0⟩],[⟨0,0,true,none,none,none,true,false,0⟩,⟨0,0,true,some .internalNl,none,none,true,true,0⟩],[⟨0,0,true,none,none,none,false,false,0⟩,⟨0,0,true,none,none,none,true,false,0⟩,⟨0,0,true,some .internalNl,none,none,false,true,0⟩,⟨0,0,true,some .internalNl,none,none,true,true,0⟩],[⟨0,0,true,none,none,none,true,false,0⟩,⟨0,0,true,some .internalNl,none,none,true,true,0⟩],[⟨0,0,true,none,none,none,true,false,0⟩,⟨0,0,true,some .internalNl,none,none,true,true,0⟩],[⟨0,0,true,none,none,none,true,false,0⟩,⟨0,0,true,none,none,none,false,false,0⟩,⟨0,0,true,some .internalNl,none,none,false,true,0⟩,⟨0,0,true,some .internalNl,none,none,true,true,0⟩,⟨0,0,false,none,none,none,false,false,0⟩],[⟨0,0,true,none,none,none,true,false,0⟩,⟨0,0,true,none,none,none,false,false,0⟩,⟨0,0,true,some .internalNl,none,none,false,true,0⟩,⟨0,0,true,some .internalNl,none,none,true,true,0⟩,⟨0,0,false,none,none,none,false,false,0⟩],[⟨0,0,true,none,none,none,true,false,0⟩,⟨0,0,true,none,none,none,false,false,0⟩,⟨0,0,true,some .internalNl,none,none,false,true,0⟩,⟨0,0,true,some .internalNl,none,none,true,true,0⟩,⟨0,0,false,none,none,none,false,false,0⟩],[⟨0,0,true,none,none,none,true,false,0⟩,⟨0,0,true,none,none,none,false,false,0⟩,⟨0,0,true,some .internalNl,none,none,false,true,0⟩,⟨0,0,true,some .internalNl,none,none,true,true,0⟩,⟨0,0,false,none,none,none,false,false,0⟩],[⟨0,0,true,none,none,none,true,false,0⟩,⟨0,0,true,none,none,none,false,false,0⟩,⟨0,0,true,some .internalNl,none,none,false,true,0⟩,⟨0,0,true,some .internalNl,none,none,true,true,0⟩,⟨0,0,false,none,none,none,false,false,0⟩],[],[⟨0,0,true,none,none,none,true,false,0⟩,⟨0,0,true,none,none,none,false,false,0⟩,⟨0,0,true,some .internalNl,none,none,false,true,0⟩,⟨0,0,true,some .internalNl,none,none,true,true,0⟩,⟨0,0,false,none,none,none,false,false,0⟩],[⟨0,0,true,none,none,none,true,false,0⟩,⟨0,0,true,none,none,none,false,false,0⟩,⟨0,0,true,some .internalNl,none,none,false,true,0⟩,⟨0,0,true,some .internalNl,none,none,true,true,0⟩,⟨0,0,false,none,none,none,false,false,0⟩],[⟨0,0,true,none,none,none,false,false,0⟩,⟨0,0,true,some .internalNl,none,none,false,true,0⟩,⟨0,0,true,none,none,none,true,false,0⟩,⟨0,0,true,some .internalNl,none,none,true,true,0⟩,⟨0,0,false,none,none,none,false,false,0⟩],[⟨0,0,true,none,none,none,true,false,0⟩,⟨0,0,true,some .internalNl,none,none,true,true,0⟩],[⟨0,0,true,none,none,none,false,false,0⟩,⟨0,0,true,none,none,none,true,false,0⟩,⟨0,0,true,some .internalNl,none,none,false,true,0⟩,⟨0,0,true,some .internalNl,none,none,true,true,0⟩,⟨0,0,false,none,none,none,false,false,0⟩],[⟨0,0,true,none,none,none,false,false,0⟩,⟨0,0,true,none,none,none,true,false,0⟩,⟨0,0,true,some .internalNl,none,none,false,true,0⟩,⟨0,0,true,some .internalNl,none,none,true,true,0⟩,⟨0,0,false,none,none,none,false,false,0⟩],[⟨0,0,true,none,none,none,false,false,0⟩,⟨0,0,true,none,none,none,true,false,0⟩,⟨0,0,true,some .internalNl,none,none,false,true,0⟩,⟨0,0,true,some .internalNl,none,none,true,true,0⟩,⟨0,0,false,none,none,none,false,false,0⟩],[⟨0,0,true,none,none,none,false,false,0⟩,⟨0,0,true,none,none,none,true,false,0⟩,⟨0,0,true,some .internalNl,none,none,false,true,0⟩,⟨0,0,true,some .internalNl,none,none,true,true,0⟩,⟨0,0,false,none,none,none,false,false,0⟩],[⟨0,0,true,none,none,none,false,false,0⟩,⟨0,0,true,none,none,none,true,false,0⟩,⟨0,0,true,some .internalNl,none,none,false,true,0⟩,⟨0,0,true,some .internalNl,none,none,true,true,0⟩,⟨0,0,false,none,none,none,false,false,0⟩],[],[⟨0,0,true,none,none,none,false,false,0⟩,⟨0,0,true,none,none,none,true,false,0⟩,⟨0,0,true,some .internalNl,none,none,false,true,0⟩,⟨0,0,true,some .internalNl,none,none,true,true,0⟩,⟨0,0,false,none,none,none,false,false,0⟩],[⟨0,0,true,none,none,none,true,false,0⟩,⟨0,0,true,some .internalNl,none,none,true,true,0⟩],[⟨0,0,true,none,none,none,false,false,0⟩,⟨0,0,true,none,none,none,true,false,0⟩,⟨0,0,true,some .internalNl,none,none,false,true,0⟩,⟨0,0,true,some .internalNl,none,none,true,true,0⟩,⟨0,0,false,none,none,none,false,false,0⟩],[⟨0,0,true,none,none,none,true,false,0⟩,⟨0,0,true,some .internalNl,none,none,true,true,0⟩],[⟨0,0,true,none,none,none,true,false,0⟩,⟨0,0,true,some .internalNl,none,none,true,true,0⟩],[⟨0,0,true,none,none,none,true,false,0⟩,⟨0,0,true,some .internalNl,none,none,true,true,0⟩],[⟨0,0,true,none,none,none,true,false,0⟩,⟨0,0,true,some .internalNl,none,none,true,true,0⟩],[⟨0,0,true,none,none,none,true,false,0⟩,⟨0,0,true,some .internalNl,none,none,true,true,0⟩],[⟨0,0,true,none,none,none,true,false,0⟩,⟨0,0,true,some .internalNl,none,none,true,true,0⟩],[],[⟨0,0,true,none,none,none,true,false,0⟩,⟨0,0,true,some .internalNl,none,none,true,true,0⟩],[⟨0,0,true,none,none,none,true,false,0⟩,⟨0,0,true,some .internalNl,none,none,true,true,0⟩],[⟨0,0,true,none,none,none,true,false,0⟩,⟨0,0,true,some .internalNl,none,none,true,true,0⟩],[⟨0,0,true,none,none,none,true,false,0⟩,⟨0,0,true,some .internalNl,none,none,true,true,0⟩],[⟨0,0,true,none,none,none,true,false,0⟩,⟨0,0,true,some .internalNl,none,none,true,true,0⟩],[],[⟨0,0,true,none,none,none,true,false,0⟩,⟨0,0,true,some .internalNl,none,none,true,true,0⟩],[⟨0,0,true,none,none,none,true,false,0⟩,⟨0,0,true,some .internalNl,none,none,true,true,0⟩],[⟨0,0,true,none,none,none,true,false,0⟩,⟨0,0,true,some .internalNl,none,none,true,true,0⟩],[⟨0,0,true,none,none,none,true,false,0⟩,⟨0,0,true,some .internalNl,none,none,true,true,0⟩],[⟨0,0,true,none,none,none,true,false,0⟩,⟨0,0,true,some .internalNl,none,none,true,true,0⟩],[⟨0,0,true,none,none,none,true,false,0⟩,⟨0,0,true,some .internalNl,none,none,true,true,0⟩],[⟨0,0,true,none,none,none,true,false,0⟩,⟨0,0,true,some .internalNl,none,none,true,true,0⟩],[⟨0,0,true,none,none,none,true,false,0⟩,⟨0,0,true,some .internalNl,none,none,true,true,0⟩],[],[⟨0,0,true,none,none,none,true,false,0⟩,⟨0,0,true,some .internalNl,none,none,true,true,0⟩],[⟨0,0,true,none,none,none,true,false,0⟩,⟨0,0,true,some .internalNl,none,none,true,true,0⟩],[⟨0,0,true,none,none,none,true,false,0⟩,⟨0,0,true,some .internalNl,none,none,true,true,0⟩],[⟨0,0,true,none,none,none,true,false,0⟩,⟨0,0,true,some .internalNl,none,none,true,true,0⟩],[⟨0,0,true,none,none,none,true,false,0⟩,⟨0,0,true,some .internalNl,none,none,true,true,0⟩],[⟨0,0,true,none,none,none,true,false,0⟩,⟨0,0,true,some .internalNl,none,none,true,true,0⟩],[⟨0,0,true,none,none,none,true,false,0⟩,⟨0,0,true,some .internalNl,none,none,true,true,0⟩],[⟨0,0,true,none,none,none,true,false,0⟩,⟨0,0,true,some .internalNl,none,none,true,true,0⟩],[⟨0,0,true,none,none,none,true,false,0⟩,⟨0,0,true,some .internalNl,none,none,true,true,0⟩],[],[⟨0,0,true,none,none,none,true,false,0⟩,⟨0,0,true,some .internalNl,none,none,true,true,0⟩],[⟨0,0,true,none,none,none,true,false,0⟩,⟨0,0,true,some .internalNl,none,none,true,true,0⟩],[⟨0,0,true,none,none,none,true,false,0⟩,⟨0,0,true,some .internalNl,none,none,true,true,0⟩],[⟨0,0,true,none,none,none,true,false,0⟩,⟨0,0,true,some .internalNl,none,none,true,true,0⟩],[⟨0,0,true,none,none,none,true,false,0⟩,⟨0,0,true,some .internalNl,none,none,true,true,0⟩],[⟨0,0,true,none,none,none,true,false,0⟩,⟨0,0,true,some .internalNl,none,none,true,true,0⟩],[⟨0,0,true,none,none,none,true,false,0⟩,⟨0,0,true,some .internalNl,none,none,true,true,0⟩],[⟨0,0,true,none,none,none,true,false,0⟩,⟨0,0,true,some .internalNl,none,none,true,true,0⟩],[⟨0,0,true,none,none,none,true,false,0⟩,⟨0,0,true,some .internalNl,none,none,true,true,0⟩],[],[⟨0,0,true,none,none,none,true,false,0⟩,⟨0,0,true,some .internalNl,none,none,true,true,0⟩],[⟨0,0,true,none,none,none,true,false,0⟩,⟨0,0,true,some .internalNl,none,none,true,true,0⟩],[⟨0,0,true,none,none,none,true,false,0⟩,⟨0,0,true,some .internalNl,none,none,true,true,0⟩],[⟨0,0,true,none,none,none,true,false,0⟩,⟨0,0,true,some .internalNl,none,none,true,true,0⟩],[⟨0,0,true,none,none,none,true,false,0⟩,⟨0,0,true,some .internalNl,none,none,true,true,0⟩],[⟨0,0,true,none,none,none,true,false,0⟩,⟨0,0,true,some .internalNl,none,none,true,true,0⟩],[⟨0,0,true,none,none,none,true,false,0⟩,⟨0,0,true,some .internalNl,none,none,true,true,0⟩],[⟨0,0,true,none,none,none,true,false,0⟩,⟨0,0,true,some .internalNl,none,none,true,true,0⟩],[⟨0,0,true,none,none,none,true,false,0⟩,⟨0,0,true,some .internalNl,none,none,true,true,0⟩],[],[⟨0,0,true,none,none,none,true,false,0⟩,⟨0,0,true,some .internalNl,none,none,true,true,0⟩],[⟨0,0,true,none,none,none,true,false,0⟩,⟨0,0,true,some .internalNl,none,none,true,true,0⟩],[⟨0,0,false,none,none,none,false,false,0⟩],[⟨0,0,true,none,none,none,true,false,0⟩,⟨0,0,true,some .internalNl,none,none,true,true,0⟩],[⟨0,0,true,none,none,none,true,false,0⟩,⟨0,0,true,some .internalNl,none,none,true,true,0⟩],[⟨0,0,true,none,none,none,true,false,0⟩,⟨0,0,true,some .internalNl,none,none,true,true,0⟩],[⟨0,0,true,none,none,none,true,false,0⟩,⟨0,0,true,some .internalNl,none,none,true,true,0⟩],[⟨0,0,true,none,none,none,true,false,0⟩,⟨0,0,true,some .internalNl,none,none,true,true,0⟩],[⟨0,0,true,none,none,none,true,false,0⟩,⟨0,0,true,some .internalNl,none,none,true,true,0⟩],[],[⟨0,0,true,none,none,none,true,false,0⟩,⟨0,0,true,some .internalNl,none,none,true,true,0⟩],[⟨0,0,true,none,none,none,true,false,0⟩,⟨0,0,true,some .internalNl,none,none,true,true,0⟩],[⟨0,0,false,none,none,none,false,false,0⟩],[⟨0,0,true,none,none,none,true,false,0⟩],[⟨0,0,false,none,none,none,false,false,0⟩],[⟨0,0,false,none,none,none,false,false,0⟩],[⟨0,0,false,none,none,none,false,false,0⟩],[⟨0,0,false,none,none,none,false,false,0⟩],[⟨0,0,false,none,none,none,false,false,0⟩],[],[⟨0,0,false,none,none,none,false,false,0⟩],[⟨0,0,false,none,none,none,false,false,0⟩],[⟨0,0,true,none,none,none,true,false,0⟩],[⟨0,0,false,none,none,none,false,false,0⟩],[⟨0,0,false,none,none,none,false,false,0⟩],[⟨0,0,false,none,none,none,false,false,0⟩],[⟨0,0,false,none,none,none,false,false,0⟩],[⟨0,0,false,none,none,none,false,false,0⟩],[],[⟨0,0,false,none,none,none,false,false,0⟩],[⟨0,0,false,none,none,none,false,false,0⟩]]
theorem phphtml_line_closed1false : closed emb33_rows phphtml_line_tab1false (EA.start phphtml_M phphtml_line 1) (EA.succ phphtml_M phphtml_line (1, false)) (EA.eofOk phphtml_M phphtml_line (1, false)) = true := by
  decide +kernel
def phphtml_line_C1false : MCert phphtml_M phphtml_line (1, false) := ⟨emb33_D, phphtml_line_tab1false, phphtml_line_closed1false, (fun h => nomatch h)⟩
def phphtml_line_tab2false : List (List EA) := [[⟨0,0,true,none,none,none,false,false,0⟩],[⟨0,0,true,none,none,none,true,false,0⟩,⟨0,0,true,some .internalNl,none,none,true,true,0⟩],[⟨0,0,true,none,none,none,false,false,0⟩,⟨0,0,true,none,none,none,true,false,0⟩,⟨0,0,true,some .internalNl,none,none,false,true,0⟩,⟨0,0,true,some .internalNl,none,none,true,true,0⟩],[⟨0,0,true,none,none,none,false,false,0⟩,⟨0,0,true,none,none,none,true,false,0⟩,⟨0,0,true,some .internalNl,none,none,false,true,0⟩,⟨0,0,true,some .internalNl,none,none,true,true,0⟩],[⟨0,0,true,none,none,none,false,false,0⟩,⟨0,0,true,none,none,none,true,false,0⟩,⟨0,0,true,some .internalNl,none,none,false,true,0⟩,⟨0,0,true,some .internalNl,none,none,true,true,0⟩],[⟨0,0,true,none,none,none,false,false,0⟩,⟨0,0,true,none,none,none,true,false,0⟩,⟨0,0,true,some .internalNl,none,none,false,true,0⟩,⟨0,0,true,some .internalNl,none,none,true,true,0⟩],[⟨0,0,true,none,none,none,false,false,0⟩,⟨0,0,true,none,none,none,true,false,0⟩,⟨0,0,true,some .internalNl,none,none,false,true,0⟩,⟨0,0,true,some .internalNl,none,none,true,true,0⟩],[⟨0,0,true,none,none,none,false,false,0⟩,⟨0,0,true,none,none,none,true,false,0⟩,⟨0,0,true,some .internalNl,none,none,false,true,0⟩,⟨0,0,true,some .internalNl,none,none,true,true,0⟩],[⟨0,0,true,none,none,none,false,false,0⟩,⟨0,0,true,none,none,none,true,false,0⟩,⟨0,0,true,some .internalNl,none,none,false,true,0⟩,⟨0,0,true,some .internalNl,none,none,true,true,0⟩],[⟨0,0,true,none,none,none,false,false,0⟩,⟨0,0,true,none,none,none,true,false,0⟩,⟨0,0,true,some .internalNl,none,none,false,true,0⟩,⟨0,0,true,some .internalNl,none,none,true,true,0⟩],[⟨0,0,true,some .internalNl,none,none,false,true,0⟩],[⟨0,0,true,none,none,none,true,false,0⟩,⟨0,0,true,some .internalNl,none,none,true,true,0⟩],[⟨0,0,true,none,none,none,false,false,0⟩,⟨0,0,true,none,none,none,true,false,0⟩,⟨0,0,true,some .internalNl,none,none,false,true,0⟩,⟨0,0,true,some .internalNl,none,none,true,true,0⟩],[⟨0,0,true,none,none,none,false,false,0⟩,⟨0,0,true,none,none,none,true,false,0⟩,⟨0,0,true,some .internalNl,none,none,false,true,0⟩,⟨0,0,true,some .internalNl,none,none,true,true,0⟩],[⟨0,0,true,none,none,none,false,false,0⟩,⟨0,0,true,none,none,none,true,false,0⟩,⟨0,0,true,some .internalNl,none,none,false,true,0⟩,⟨0,0,true,some .internalNl,none,none,true,true,0⟩],[⟨0,0,true,none,none,none,false,false,0⟩,⟨0,0,true,none,none,none,true,false,0⟩,⟨0,0,true,some .internalNl,none,none,false,true,0⟩,⟨0,0,true,some .internalNl,none,none,true,true,0⟩],[⟨0,0,true,none,none,none,false,false,0⟩,⟨0,0,true,none,none,none,true,false,0⟩,⟨0,0,true,some .internalNl,none,none,false,true,0⟩,⟨0,0,true,some .internalNl,none,none,true,true,0⟩],[],[⟨0,0,true,none,none,none,false,false,0⟩,⟨0,0,true,none,none,none,true,false,0⟩,⟨0,0,true,some .internalNl,none,none,false,true,0⟩,⟨0,0,true,some .internalNl,none,none,true,true,0⟩],[⟨0,0,true,none,none,none,true,false,0⟩,⟨0,0,true,some .internalNl,none,none,true,true,0⟩],[⟨0,0,true,none,none,none,false,false,0⟩,⟨0,0,true,none,none,none,true,false,0⟩,⟨0,0,true,some .internalNl,none,none,false,true,0⟩,⟨0,0,true,some .internalNl,none,none,true,true,0⟩],[⟨0,0,true,none,none,none,true,false,0⟩,⟨0,0,true,some .internalNl,none,none,true,true,0⟩],[⟨0,0,true,none,none,none,true,false,0⟩,⟨0,0,true,some .internalNl,none,none,true,true,0⟩],[⟨0,0,true,none,none,none,true,false,0⟩,⟨0,0,true,none,none,none,false,false,0⟩,⟨0,0,true,some .internalNl,none,none,false,true,0⟩,⟨0,0,true,some .internalNl,none,none,true,true,0⟩,⟨0,0,false,none,none,none,false,false,0⟩],[⟨0,0,true,none,none,none,true,false,0⟩,⟨0,0,true,none,none,none,false,false,0⟩,⟨0,0,true,some .internalNl,none,none,false,true,0⟩,⟨0,0,true,some .internalNl,none,none,true,true,0⟩,⟨0,0,false,none,none,none,false,false,0⟩],[⟨0,0,true,none,none,none,true,false,0⟩,⟨0,0,true,none,none,none,false,false,0⟩,⟨0,0,true,some .internalNl,none,none,false,true,0⟩,⟨0,0,true,some .internalNl,none,none,true,true,0⟩,⟨0,0,false,none,none,none,false,false,0⟩],[⟨0,0,true,none,none,none,true,false,0⟩,⟨0,0,true,none,none,none,false,false,0⟩,⟨0,0,true,some .internalNl,none,none,false,true,0⟩,⟨0,0,true,some .internalNl,none,none,true,true,0⟩,⟨0,0,false,none,none,none,false,false,0⟩],[⟨0,0,true,none,none,none,true,false,0⟩,⟨0,0,true,none,none,none,false,false,0⟩,⟨0,0,true,some .internalNl,none,none,false,true,0⟩,⟨0,0,true,some .internalNl,none,none,true,true,0⟩,⟨0,0,false,none,none,none,false,false,0⟩],[],[⟨0,0,true,none,none,none,true,false,0⟩,⟨0,0,true,none,none,none,false,false,0⟩,⟨0,0,true,some .internalNl,none,none,false,true,0⟩,⟨0,0,true,some .internalNl,none,none,true,true,0⟩,⟨0,0,false,none,none,none,false,false,0⟩],[⟨0,0,true,none,none,none,true,false,0⟩,⟨0,0,true,none,none,none,false,false,0⟩,⟨0,0,true,some .internalNl,none,none,false,true,0⟩,⟨0,0,true,some .internalNl,none,none,true,true,0⟩,⟨0,0,false,none,none,none,false,false,0⟩],[⟨0,0,true,none,none,none,false,false,0⟩,⟨0,0,true,some .internalNl,none,none,false,true,0⟩,⟨0,0,true,none,none,none,true,false,0⟩,⟨0,0,true,some .internalNl,none,none,true,true,0⟩,⟨0,0,false,none,none,none,false,false,0⟩],[⟨0,0,true,none,none,none,true,false,0⟩,⟨0,0,true,some .internalNl,none,none,true,true,0⟩],[⟨0,0,true,none,none,none,false,false,0⟩,⟨0,0,true,none,none,none,true,false,0⟩,⟨0,0,true,some .internalNl,none,none,false,true,0⟩,⟨0,0,true,some .internalNl,none,none,true,true,0⟩,⟨0,0,false,none,none,none,false,false,0⟩],[⟨0,0,true,none,none,none,false,false,0⟩,⟨0,0,true,none,none,none,true,false,0⟩,⟨0,0,true,some .internalNl,none,none,false,true,0⟩,⟨0,0,true,some .internalNl,none,none,true,true,0⟩,⟨0,0,false,none,none,none,false,false,0⟩],[⟨0,0,true,none,none,none,false,false,0⟩,⟨0,0,true,none,none,none,true,false,0⟩,⟨0,0,true,some .internalNl,none,none,false,true,0⟩,⟨0,0,true,some .internalNl,none,none,true,true,0⟩,⟨0,0,false,none,none,none,false,false,0⟩],[⟨0,0,true,none,none,none,false,false,0⟩,⟨0,0,true,none,none,none,true,false,0⟩,⟨0,0,true,some .internalNl,none,none,false,true,0⟩,⟨0,0,true,some .internalNl,none,none,true,true,0⟩,⟨0,0,false,none,none,none,false,false,0⟩],[⟨0,0,true,none,none,none,false,false,0⟩,⟨0,0,true,none,none,none,true,false,0⟩,⟨0,0,true,some .internalNl,none,none,false,true,0⟩,⟨0,0,true,some .internalNl,none,none,true,true,0⟩,⟨0,0,false,none,none,none,false,false,0⟩],[],[⟨0,0,true,none,none,none,false,false,0⟩,⟨0,0,true,none,none,none,true,false,0⟩,⟨0,0,true,some .internalNl,none,none,false,true,0⟩,⟨0,0,true,some .internalNl,none,none,true,true,0⟩,⟨0,0,false,none,none,none,false,false,0⟩],[⟨0,0,true,none,none,none,true,false,0⟩,⟨0,0,true,some .internalNl,none,none,true,true,0⟩],[⟨0,0,true,none,none,none,false,false,0⟩,⟨0,0,true,none,none,none,true,false,0⟩,⟨0,0,true,some .internalNl,none,none,false,true,0⟩,⟨0,0,true,some .internalNl,none,none,true,true,0⟩,⟨0,0,false,none,none,none,false,false,0⟩],[⟨0,0,true,none,none,none,true,false,0⟩,⟨0,0,true,some .internalNl,none,none,true,true,0⟩],[⟨0,0,true,none,none,none,true,false,0⟩,⟨0,0,true,some .internalNl,none,none,true,true,0⟩],[⟨0,0,true,none,none,none,true,false,0⟩,⟨0,0,true,some .internalNl,none,none,true,true,0⟩],[⟨0,0,true,none,none,none,true,false,0⟩,⟨0,0,true,some .internalNl,none,none,true,true,0⟩],[⟨0,0,true,none,none,none,true,false,0⟩,⟨0,0,true,some .internalNl,none,none,true,true,0⟩],[⟨0,0,true,none,none,none,true,false,0⟩,⟨0,0,true,some .internalNl,none,none,true,true,0⟩],[],[⟨0,0,true,none,none,none,true,false,0⟩,⟨0,0,true,some .internalNl,none,none,true,true,0⟩],[⟨0,0,true,none,none,none,true,false,0⟩,⟨0,0,true,some .internalNl,none,none,true,true,0⟩],[⟨0,0,true,none,none,none,true,false,0⟩,⟨0,0,true,some .internalNl,none,none,true,true,0⟩],[⟨0,0,true,none,none,none,true,false,0⟩,⟨0,0,true,some .internalNl,none,none,true,true,0⟩],[⟨0,0,true,none,none,none,true,false,0⟩,⟨0,0,true,some .internalNl,none,none,true,true,0⟩],[],[⟨0,0,true,none,none,none,true,false,0⟩,⟨0,0,true,some .internalNl,none,none,true,true,0⟩],[⟨0,0,true,none,none,none,true,false,0⟩,⟨0,0,true,some .internalNl,none,none,true,true,0⟩],[⟨0,0,true,none,none,none,true,false,0⟩,⟨0,0,true,some .internalNl,none,none,true,true,0⟩],[⟨0,0,true,none,none,none,true,false,0⟩,⟨0,0,true,some .internalNl,none,none,true,true,0⟩],[⟨0,0,true,none,none,none,true,false,0⟩,⟨0,0,true,some .internalNl,none,none,true,true,0⟩],[⟨0,0,true,none,none,none,true,false,0⟩,⟨0,0,true,some .internalNl,none,none,true,true,0⟩],[⟨0,0,true,none,none,none,true,false,0⟩,⟨0,0,true,some .internalNl,none,none,true,true,0⟩],[⟨0,0,true,none,none,none,true,false,0⟩,⟨0,0,true,some .internalNl,none,none,true,true,0⟩],[],[⟨0,0,true,none,none,none,true,false,0⟩,⟨0,0,true,some .internalNl,none,none,true,true,0⟩],[⟨0,0,true,none,none,none,true,false,0⟩,⟨0,0,true,some .internalNl,none,none,true,true,0⟩],[⟨0,0,true,none,none,none,true,false,0⟩,⟨0,0,true,some .internalNl,none,none,true,true,0⟩],[⟨0,0,true,none,none,none,true,false,0⟩,⟨0,0,true,some .internalNl,none,none,true,true,0⟩],[⟨0,0,true,none,none,none,true,false,0⟩,⟨0,0,true,some .internalNl,none,none,true,true,0⟩],[⟨0,0,true,none,none,none,true,false,0⟩,⟨0,0,true,some .internalNl,none,none,true,true,0⟩],[⟨0,0,true,none,none,none,true,false,0⟩,⟨0,0,true,some .internalNl,none,none,true,true,0⟩],[⟨0,0,true,none,none,none,true,false,0⟩,⟨0,0,true,some .internalNl,none,none,true,true,0⟩],[⟨0,0,true,none,none,none,true,false,0⟩,⟨0,0,true,some .internalNl,none,none,true,true,0⟩],[],[⟨0,0,true,none,none,none,true,false,0⟩,⟨0,0,true,some .internalNl,none,none,true,true,0⟩],[⟨0,0,true,none,none,none,true,false,0⟩,⟨0,0,true,some .internalNl,none,none,true,true,0⟩],[⟨0,0,true,none,none,none,true,false,0⟩,⟨0,0,true,some .internalNl,none,none,true,true,0⟩],[⟨0,0,true,none,none,none,true,false,0⟩,⟨0,0,true,some .internalNl,none,none,true,true,0⟩],[⟨0,0,true,none,none,none,true,false,0⟩,⟨0,0,true,some .internalNl,none,none,true,true,0⟩],[⟨0,0,true,none,none,none,true,false,0⟩,⟨0,0,true,some .internalNl,none,none,true,true,0⟩],[⟨0,0,true,none,none,none,true,false,0⟩,⟨0,0,true,some .internalNl,none,none,true,true,0⟩],[⟨0,0,true,none,none,none,true,false,0⟩,⟨0,0,true,some .internalNl,none,none,true,true,0⟩],[⟨0,0,true,none,none,none,true,false,0⟩,⟨0,0,true,some .internalNl,none,none,true,true,0⟩],[],[⟨0,0,true,none,none,none,true,false,0⟩,⟨0,0,true,some .internalNl,none,none,true,true,0⟩],[⟨0,0,true,none,none,none,true,false,0⟩,⟨0,0,true,some .internalNl,none,none,true,true,0⟩],[⟨0,0,true,none,none,none,true,false,0⟩,⟨0,0,true,some .internalNl,none,none,true,true,0⟩],[⟨0,0,true,none,none,none,true,false,0⟩,⟨0,0,true,some .internalNl,none,none,true,true,0⟩],[⟨0,0,true,none,none,none,true,false,0⟩,⟨0,0,true,some .internalNl,none,none,true,true,0⟩],[⟨0,0,true,none,none,none,true,false,0⟩,⟨0,0,true,some .internalNl,none,none,true,true,0⟩],[⟨0,0,true,none,none,none,true,false,0⟩,⟨0,0,true,some .internalNl,none,none,true,true,0⟩],[⟨0,0,true,none,none,none,true,false,0⟩,⟨0,0,true,some .internalNl,none,none,true,true,0⟩],[⟨0,0,true,none,none,none,true,false,0⟩,⟨0,0,true,some .internalNl,none,none,true,true,0⟩],[],[⟨0,0,true,none,none,none,true,false,0⟩,⟨0,0,true,some .internalNl,none,none,true,true,0⟩],[⟨0,0,true,none,none,none,true,false,0⟩,⟨0,0,true,some .internalNl,none,none,true,true,0⟩],[⟨0,0,false,none,none,none,false,false,0⟩],[⟨0,0,true,none,none,none,true,false,0⟩,⟨0,0,true,some .internalNl,none,none,true,true,0⟩],[⟨0,0,true,none,none,none,true,false,0⟩,⟨0,0,true,some .internalNl,none,none,true,true,0⟩],[⟨0,0,true,none,none,none,true,false,0⟩,⟨0,0,true,some .internalNl,none,none,true,true,0⟩],[⟨0,0,true,none,none,none,true,false,0⟩,⟨0,0,true,some .internalNl,none,none,true,true,0⟩],[⟨0,0,true,none,none,none,true,false,0⟩,⟨0,0,true,some .internalNl,none,none,true,true,0⟩],[⟨0,0,true,none,none,none,true,false,0⟩,⟨0,0,true,some .internalNl,none,none,true,true,0⟩],[],[⟨0,0,true,none,none,none,true,false,0⟩,⟨0,0,true,some .internalNl,none,none,true,true,0⟩],[⟨0,0,true,none,none,none,true,false,0⟩,⟨0,0,true,some .internalNl,none,none,true,true,0⟩],[⟨0,0,false,none,none,none,false,false,0⟩],[⟨0,0,true,none,none,none,true,false,0⟩],[⟨0,0,false,none,none,none,false,false,0⟩],[⟨0,0,false,none,none,none,false,false,0⟩],[⟨0,0,false,none,none,none,false,false,0⟩],[⟨0,0,false,none,none,none,false,false,0⟩],[⟨0,0,false,none,none,none,false,false,0⟩],[],[⟨0,0,false,none,none,none,false,false,0⟩],[⟨0,0,false,none,none,none,false,false,0⟩],[⟨0,0,true,none,none,none,true,false,0⟩],[⟨0,0,false,none,none,none,false,false,0⟩],[⟨0,0,false,none,none,none,false,false,0⟩],[⟨0,0,false,none,none,none,false,false,0⟩],[⟨0,0,false,none,none,none,false,false,0⟩],[⟨0,0,false,none,none,none,false,false,0⟩],[],[⟨0,0,false,none,none,none,false,false,0⟩],[⟨0,0,false,none,none,none,false,false,0⟩]]
theorem phphtml_line_closed2false : closed emb34_rows phphtml_line_tab2false (EA.start phphtml_M phphtml_line 2) (EA.succ phphtml_M phphtml_line (2, false)) (EA.eofOk phphtml_M phphtml_line (2, false)) = true := by
  decide +kernel
def phphtml_line_C2false : MCert phphtml_M phphtml_line (2, false) := ⟨emb34_D, phphtml_line_tab2false, phphtml_line_closed2false, (fun h => nomatch h)⟩
theorem phphtml_line_certs : ∀ u ∈ phphtml_line.use, Nonempty (MCert phphtml_M phphtml_line u) :=
  (List.forall_mem_cons.mpr ⟨⟨phphtml_line_C6false⟩,
  (List.forall_mem_cons.mpr ⟨⟨phphtml_line_C3true⟩,
  (List.forall_mem_cons.mpr ⟨⟨phphtml_line_C4true⟩,
  (List.forall_mem_cons.mpr ⟨⟨phphtml_line_C5true⟩,
  (List.forall_mem_cons.mpr ⟨⟨phphtml_line_C0false⟩,
  (List.forall_mem_cons.mpr ⟨⟨phphtml_line_C1false⟩,
  (List.forall_mem_cons.mpr ⟨⟨phphtml_line_C2false⟩,
  (fun _ h => nomatch h)⟩)⟩)⟩)⟩)⟩)⟩)⟩)

def phphtml_entity : EOpt := ⟨false, false, false, [(10,false),(7,true),(8,true),(9,true)], 4⟩
def phphtml_entity_tab10false : List (List EA) := [[⟨0,0,false,none,none,none,false,false,0⟩],[⟨1,0,false,some (.own 0),some 3,none,false,true,0⟩,⟨2,0,false,some (.own 0),some 3,none,false,true,0⟩,⟨3,0,false,some (.own 0),some 3,none,false,true,0⟩],[⟨1,0,false,some (.own 1),some 5,none,false,true,0⟩],[⟨2,0,false,some (.own 1),some 5,none,false,true,0⟩],[⟨2,0,false,some (.own 1),some 2,none,false,true,0⟩],[⟨2,0,false,some (.own 1),some 5,none,false,true,0⟩],[⟨3,0,false,some (.own 1),some 5,none,false,true,0⟩],[⟨3,0,false,some (.own 1),some 2,none,false,true,0⟩],[⟨3,0,false,some (.own 1),some 5,none,false,true,0⟩],[⟨3,0,false,some (.own 1),some 5,none,false,true,0⟩],[⟨3,0,false,some (.own 1),some 5,none,false,true,0⟩],[⟨3,0,false,some (.own 1),some 2,none,false,true,0⟩],[⟨3,0,false,some (.own 1),some 5,none,false,true,0⟩],[⟨3,0,false,some (.own 1),some 5,none,false,true,0⟩],[⟨3,0,false,some (.own 1),some 5,none,false,true,0⟩],[⟨3,0,false,some (.own 1),some 5,none,false,true,0⟩],[⟨3,0,false,some (.own 1),some 5,none,false,true,0⟩],[⟨3,0,false,some (.own 1),some 5,none,false,true,0⟩],[⟨3,0,false,some (.own 1),some 5,none,false,true,0⟩],[⟨3,0,false,some (.own 1),some 5,none,false,true,0⟩],[⟨3,0,false,some (.own 1),some 5,none,false,true,0⟩],[⟨3,0,false,some (.own 1),some 5,none,false,true,0⟩],[⟨3,0,false,some (.own 1),some 5,none,false,true,0⟩],[⟨3,0,false,some (.own 1),some 5,none,false,true,0⟩],[⟨3,0,false,some (.own 1),some 5,none,false,true,0⟩],[⟨3,0,false,some (.own 1),some 5,none,false,true,0⟩],[⟨3,0,false,some (.own 1),some 5,none,false,true,0⟩],[⟨3,0,false,some (.own 1),some 5,none,false,true,0⟩],[⟨3,0,false,some (.own 1),some 5,none,false,true,0⟩],[⟨3,0,false,some (.own 1),some 5,none,false,true,0⟩],[⟨3,0,false,some (.own 1),some 5,none,false,true,0⟩],[⟨3,0,false,some (.own 1),some 5,none,false,true,0⟩],[⟨3,0,false,some (.own 1),some 5,none,false,true,0⟩],[⟨3,0,false,some (.own 1),some 5,none,false,true,0⟩],[⟨3,0,false,some (.own 1),some 5,none,false,true,0⟩],[⟨3,0,false,some (.own 1),some 5,none,false,true,0⟩],[⟨3,0,false,some (.own 1),some 5,none,false,true,0⟩],[⟨3,0,false,some (.own 1),some 5,none,false,true,0⟩],[⟨3,0,false,some (.own 1),some 5,none,false,true,0⟩],[⟨3,0,false,some (.own 1),some 5,none,false,true,0⟩],[⟨3,0,false,some (.own 1),some 5,none,false,true,0⟩],[⟨3,0,false,some (.own 1),some 5,none,false,true,0⟩],[⟨3,0,false,some (.own 1),some 5,none,false,true,0⟩],[⟨3,0,false,some (.own 1),some 5,none,false,true,0⟩],[⟨3,0,false,some (.own 1),some 5,none,false,true,0⟩],[⟨3,0,false,some (.own 1),some 5,none,false,true,0⟩],[⟨3,0,false,some (.own 1),some 5,none,false,true,0⟩],[⟨3,0,false,some (.own 1),some 5,none,false,true,0⟩],[⟨3,0,false,some (.own 1),some 5,none,false,true,0⟩]]
theorem phphtml_entity_closed10false : closed emb38_rows phphtml_entity_tab10false (EA.start phphtml_M phphtml_entity 10) (EA.succ phphtml_M phphtml_entity (10, false)) (EA.eofOk phphtml_M phphtml_entity (10, false)) = true := by
  decide +kernel
def phphtml_entity_C10false : MCert phphtml_M phphtml_entity (10, false) := ⟨emb38_D, phphtml_entity_tab10false, phphtml_entity_closed10false, (fun h => nomatch h)⟩
def phphtml_entity_tab7true : List (List EA) := [[⟨0,0,false,none,none,none,false,false,0⟩],[⟨1,0,false,some (.own 0),some 1,none,false,true,0⟩,⟨2,0,false,some (.own 0),some 1,none,false,true,0⟩,⟨3,0,false,some (.own 0),some 1,none,false,true,0⟩],[⟨1,0,false,some (.own 1),some 3,none,false,true,0⟩],[⟨1,0,false,none,some 3,none,false,false,0⟩],[⟨2,0,false,some (.own 1),some 3,none,false,true,0⟩],[⟨2,0,false,none,some 3,none,false,false,0⟩],[⟨3,0,false,some (.own 1),some 3,none,false,true,0⟩],[⟨3,0,false,some (.own 1),some 3,none,false,true,0⟩],[⟨3,0,false,none,some 3,none,false,false,0⟩],[⟨3,0,false,none,some 3,none,false,false,0⟩],[⟨3,0,false,none,some 3,none,false,false,0⟩],[⟨3,0,false,none,some 3,none,false,false,0⟩],[⟨3,0,false,none,some 3,none,false,false,0⟩],[⟨3,0,false,none,some 3,none,false,false,0⟩,⟨3,0,true,some .internalNl,some 3,none,false,true,0⟩],[⟨3,0,false,some .internalNl,some 3,none,false,true,0⟩,⟨3,0,true,some .internalNl,some 3,none,false,true,0⟩],[⟨3,0,false,some .internalNl,some 3,none,false,true,0⟩,⟨3,0,true,some .internalNl,some 3,none,false,true,0⟩],[⟨3,0,false,none,some 3,none,false,false,0⟩,⟨3,0,true,some .internalNl,some 3,none,false,true,0⟩],[⟨3,0,false,some .internalNl,some 3,none,false,true,0⟩,⟨3,0,true,some .internalNl,some 3,none,false,true,0⟩],[⟨3,0,false,some .internalNl,some 3,none,false,true,0⟩,⟨3,0,true,some .internalNl,some 3,none,false,true,0⟩],[⟨3,0,true,some .internalNl,some 3,none,false,true,0⟩]]
theorem phphtml_entity_closed7true : closed emb3_rows phphtml_entity_tab7true (EA.start phphtml_M phphtml_entity 7) (EA.succ phphtml_M phphtml_entity (7, true)) (EA.eofOk phphtml_M phphtml_entity (7, true)) = true := by
  decide +kernel
def phphtml_entity_C7true : MCert phphtml_M phphtml_entity (7, true) := ⟨emb3_D, phphtml_entity_tab7true, phphtml_entity_closed7true, (fun h => nomatch h)⟩
def phphtml_entity_tab8true : List (List EA) := [[⟨0,0,false,none,none,none,false,false,0⟩],[⟨1,0,false,some (.own 0),some 1,none,false,true,0⟩,⟨2,0,false,some (.own 0),some 1,none,false,true,0⟩,⟨3,0,false,some (.own 0),some 1,none,false,true,0⟩],[⟨1,0,false,some (.own 1),some 3,none,false,true,0⟩],[⟨1,0,false,none,some 3,none,false,false,0⟩],[⟨2,0,false,some (.own 1),some 3,none,false,true,0⟩],[⟨2,0,false,some (.own 1),some 2,none,false,true,0⟩],[⟨2,0,false,none,some 3,none,false,false,0⟩],[⟨3,0,false,some (.own 1),some 3,none,false,true,0⟩],[⟨3,0,false,some (.own 1),some 3,none,false,true,0⟩],[⟨3,0,false,some (.own 1),some 2,none,false,true,0⟩],[⟨3,0,false,none,some 3,none,false,false,0⟩],[⟨3,0,false,none,some 3,none,false,false,0⟩],[⟨3,0,false,none,some 3,none,false,false,0⟩],[⟨3,0,false,none,some 3,none,false,false,0⟩],[⟨3,0,false,none,some 3,none,false,false,0⟩],[⟨3,0,false,none,some 3,none,false,false,0⟩],[⟨3,0,false,none,some 3,none,false,false,0⟩,⟨3,0,true,some .internalNl,some 3,none,false,true,0⟩],[⟨3,0,false,some .internalNl,some 3,none,false,true,0⟩,⟨3,0,true,some .internalNl,some 3,none,false,true,0⟩],[⟨3,0,false,some .internalNl,some 3,none,false,true,0⟩,⟨3,0,true,some .internalNl,some 3,none,false,true,0⟩],[⟨3,0,false,none,some 3,none,false,false,0⟩,⟨3,0,true,some .internalNl,some 3,none,false,true,0⟩],[⟨3,0,false,some .internalNl,some 3,none,false,true,0⟩,⟨3,0,true,some .internalNl,some 3,none,false,true,0⟩],[⟨3,0,false,some .internalNl,some 3,none,false,true,0⟩,⟨3,0,true,some .internalNl,some 3,none,false,true,0⟩],[⟨3,0,true,some .internalNl,some 3,none,false,true,0⟩]]
theorem phphtml_entity_closed8true : closed emb4_rows phphtml_entity_tab8true (EA.start phphtml_M phphtml_entity 8) (EA.succ phphtml_M phphtml_entity (8, true)) (EA.eofOk phphtml_M phphtml_entity (8, true)) = true := by
  decide +kernel
def phphtml_entity_C8true : MCert phphtml_M phphtml_entity (8, true) := ⟨emb4_D, phphtml_entity_tab8true, phphtml_entity_closed8true, (fun h => nomatch h)⟩
def phphtml_entity_tab9true : List (List EA) := [[⟨0,0,false,none,none,none,false,false,0⟩],[⟨1,0,false,some (.own 0),some 1,none,false,true,0⟩,⟨2,0,false,some (.own 0),some 1,none,false,true,0⟩,⟨3,0,false,some (.own 0),some 1,none,false,true,0⟩],[⟨1,0,false,some (.own 1),some 2,none,false,true,0⟩],[⟨1,0,false,some (.own 1),some 3,none,false,true,0⟩],[⟨1,0,false,none,some 3,none,false,false,0⟩],[⟨2,0,false,some (.own 1),some 2,none,false,true,0⟩,⟨3,0,false,some (.own 1),some 2,none,false,true,0⟩],[⟨2,0,false,some (.own 1),some 3,none,false,true,0⟩],[⟨2,0,false,some (.own 1),some 2,none,false,true,0⟩],[⟨3,0,false,some (.own 1),some 3,none,false,true,0⟩],[⟨3,0,false,some (.own 1),some 3,none,false,true,0⟩]]
theorem phphtml_entity_closed9true : closed emb37_rows phphtml_entity_tab9true (EA.start phphtml_M phphtml_entity 9) (EA.succ phphtml_M phphtml_entity (9, true)) (EA.eofOk phphtml_M phphtml_entity (9, true)) = true := by
  decide +kernel
def phphtml_entity_C9true : MCert phphtml_M phphtml_entity (9, true) := ⟨emb37_D, phphtml_entity_tab9true, phphtml_entity_closed9true, (fun h => nomatch h)⟩
theorem phphtml_entity_certs : ∀ u ∈ phphtml_entity.use, Nonempty (MCert phphtml_M phphtml_entity u) :=
  (List.forall_mem_cons.mpr ⟨⟨phphtml_entity_C10false⟩,
  (List.forall_mem_cons.mpr ⟨⟨phphtml_entity_C7true⟩,
  (List.forall_mem_cons.mpr ⟨⟨phphtml_entity_C8true⟩,
  (List.forall_mem_cons.mpr ⟨⟨phphtml_entity_C9true⟩,
  (fun _ h => nomatch h)⟩)⟩)⟩)⟩)

def phphtml_entityt : EOpt := ⟨true, true, false, [(10,false),(7,true),(8,true),(9,true)], 4⟩
def phphtml_entityt_tab10false : List (List EA) := [[⟨0,0,false,none,none,none,false,false,0⟩],[⟨1,0,false,some (.own 0),some 3,none,false,true,0⟩,⟨2,0,false,some (.own 0),some 3,none,false,true,0⟩,⟨3,0,false,some (.own 0),some 3,none,false,true,0⟩],[⟨1,0,false,some (.own 1),some 5,none,false,true,1⟩],[⟨2,0,false,some (.own 1),some 5,none,false,true,0⟩],[⟨2,0,false,some (.own 1),some 2,none,false,true,0⟩],[⟨2,0,false,some (.own 1),some 5,none,false,true,0⟩],[⟨3,0,false,some (.own 1),some 5,none,false,true,0⟩],[⟨3,0,false,some (.own 1),some 2,none,false,true,0⟩],[⟨3,0,false,some (.own 1),some 5,none,false,true,0⟩],[⟨3,0,false,some (.own 1),some 5,none,false,true,0⟩],[⟨3,0,false,some (.own 1),some 5,none,false,true,0⟩],[⟨3,0,false,some (.own 1),some 2,none,false,true,0⟩],[⟨3,0,false,some (.own 1),some 5,none,false,true,0⟩],[⟨3,0,false,some (.own 1),some 5,none,false,true,0⟩],[⟨3,0,false,some (.own 1),some 5,none,false,true,0⟩],[⟨3,0,false,some (.own 1),some 5,none,false,true,0⟩],[⟨3,0,false,some (.own 1),some 5,none,false,true,0⟩],[⟨3,0,false,some (.own 1),some 5,none,false,true,0⟩],[⟨3,0,false,some (.own 1),some 5,none,false,true,0⟩],[⟨3,0,false,some (.own 1),some 5,none,false,true,0⟩],[⟨3,0,false,some (.own 1),some 5,none,false,true,0⟩],[⟨3,0,false,some (.own 1),some 5,none,false,true,0⟩],[⟨3,0,false,some (.own 1),some 5,none,false,true,0⟩],[⟨3,0,false,some (.own 1),some 5,none,false,true,0⟩],[⟨3,0,false,some (.own 1),some 5,none,false,true,0⟩],[⟨3,0,false,some (.own 1),some 5,none,false,true,0⟩],[⟨3,0,false,some (.own 1),some 5,none,false,true,0⟩],[⟨3,0,false,some (.own 1),some 5,none,false,true,0⟩],[⟨3,0,false,some (.own 1),some 5,none,false,true,0⟩],[⟨3,0,false,some (.own 1),some 5,none,false,true,0⟩],[⟨3,0,false,some (.own 1),some 5,none,false,true,0⟩],[⟨3,0,false,some (.own 1),some 5,none,false,true,0⟩],[⟨3,0,false,some (.own 1),some 5,none,false,true,0⟩],[⟨3,0,false,some (.own 1),some 5,none,false,true,0⟩],[⟨3,0,false,some (.own 1),some 5,none,false,true,0⟩],[⟨3,0,false,some (.own 1),some 5,none,false,true,0⟩],[⟨3,0,false,some (.own 1),some 5,none,false,true,0⟩],[⟨3,0,false,some (.own 1),some 5,none,false,true,0⟩],[⟨3,0,false,some (.own 1),some 5,none,false,true,0⟩],[⟨3,0,false,some (.own 1),some 5,none,false,true,0⟩],[⟨3,0,false,some (.own 1),some 5,none,false,true,0⟩],[⟨3,0,false,some (.own 1),some 5,none,false,true,0⟩],[⟨3,0,false,some (.own 1),some 5,none,false,true,0⟩],[⟨3,0,false,some (.own 1),some 5,none,false,true,0⟩],[⟨3,0,false,some (.own 1),some 5,none,false,true,0⟩],[⟨3,0,false,some (.own 1),some 5,none,false,true,0⟩],[⟨3,0,false,some (.own 1),some 5,none,false,true,0⟩],[⟨3,0,false,some (.own 1),some 5,none,false,true,0⟩],[⟨3,0,false,some (.own 1),some 5,none,false,true,0⟩]]
theorem phphtml_entityt_closed10false : closed emb38_rowst phphtml_entityt_tab10false (EA.start phphtml_M phphtml_entityt 10) (EA.succ phphtml_M phphtml_entityt (10, false)) (EA.eofOk phphtml_M phphtml_entityt (10, false)) = true := by
  decide +kernel
def phphtml_entityt_C10false : MCert phphtml_M phphtml_entityt (10, false) := ⟨emb38_Dt, phphtml_entityt_tab10false, phphtml_entityt_closed10false, (fun _ => ⟨by decide +kernel, by decide +kernel, by decide +kernel⟩)⟩
def phphtml_entityt_tab7true : List (List EA) := [[⟨0,0,false,none,none,none,false,false,0⟩],[⟨1,0,false,some (.own 0),some 1,none,false,true,0⟩,⟨2,0,false,some (.own 0),some 1,none,false,true,0⟩,⟨3,0,false,some (.own 0),some 1,none,false,true,0⟩],[⟨1,0,false,some (.own 1),some 3,none,false,true,0⟩],[⟨1,0,false,none,some 3,none,false,false,1⟩],[⟨2,0,false,some (.own 1),some 3,none,false,true,0⟩],[⟨2,0,false,none,some 3,none,false,false,2⟩],[⟨3,0,false,some (.own 1),some 3,none,false,true,0⟩],[⟨3,0,false,some (.own 1),some 3,none,false,true,0⟩],[⟨3,0,false,none,some 3,none,false,false,2⟩],[⟨3,0,false,none,some 3,none,false,false,2⟩],[⟨3,0,false,none,some 3,none,false,false,2⟩],[⟨3,0,false,none,some 3,none,false,false,2⟩],[⟨3,0,false,none,some 3,none,false,false,2⟩],[⟨3,0,false,none,some 3,none,false,false,2⟩],[],[],[],[],[],[]]
theorem phphtml_entityt_closed7true : closed emb3_rowst phphtml_entityt_tab7true (EA.start phphtml_M phphtml_entityt 7) (EA.succ phphtml_M phphtml_entityt (7, true)) (EA.eofOk phphtml_M phphtml_entityt (7, true)) = true := by
  decide +kernel
def phphtml_entityt_C7true : MCert phphtml_M phphtml_entityt (7, true) := ⟨emb3_Dt, phphtml_entityt_tab7true, phphtml_entityt_closed7true, (fun _ => ⟨by decide +kernel, by decide +kernel, by decide +kernel⟩)⟩
def phphtml_entityt_tab8true : List (List EA) := [[⟨0,0,false,none,none,none,false,false,0⟩],[⟨1,0,false,some (.own 0),some 1,none,false,true,0⟩,⟨2,0,false,some (.own 0),some 1,none,false,true,0⟩,⟨3,0,false,some (.own 0),some 1,none,false,true,0⟩],[⟨1,0,false,some (.own 1),some 3,none,false,true,0⟩],[⟨1,0,false,none,some 3,none,false,false,1⟩],[⟨2,0,false,some (.own 1),some 3,none,false,true,0⟩],[⟨2,0,false,some (.own 1),some 2,none,false,true,0⟩],[⟨2,0,false,none,some 3,none,false,false,2⟩],[⟨3,0,false,some (.own 1),some 3,none,false,true,0⟩],[⟨3,0,false,some (.own 1),some 3,none,false,true,0⟩],[⟨3,0,false,some (.own 1),some 2,none,false,true,0⟩],[⟨3,0,false,none,some 3,none,false,false,2⟩],[⟨3,0,false,none,some 3,none,false,false,2⟩],[⟨3,0,false,none,some 3,none,false,false,2⟩],[⟨3,0,false,none,some 3,none,false,false,2⟩],[⟨3,0,false,none,some 3,none,false,false,2⟩],[⟨3,0,false,none,some 3,none,false,false,2⟩],[⟨3,0,false,none,some 3,none,false,false,2⟩],[],[],[],[],[],[]]
theorem phphtml_entityt_closed8true : closed emb4_rowst phphtml_entityt_tab8true (EA.start phphtml_M phphtml_entityt 8) (EA.succ phphtml_M phphtml_entityt (8, true)) (EA.eofOk phphtml_M phphtml_entityt (8, true)) = true := by
  decide +kernel
def phphtml_entityt_C8true : MCert phphtml_M phphtml_entityt (8, true) := ⟨emb4_Dt, phphtml_entityt_tab8true, phphtml_entityt_closed8true, (fun _ => ⟨by decide +kernel, by decide +kernel, by decide +kernel⟩)⟩
def phphtml_entityt_tab9true : List (List EA) := [[⟨0,0,false,none,none,none,false,false,0⟩],[⟨1,0,false,some (.own 0),some 1,none,false,true,0⟩,⟨2,0,false,some (.own 0),some 1,none,false,true,0⟩,⟨3,0,false,some (.own 0),some 1,none,false,true,0⟩],[⟨1,0,false,some (.own 1),some 2,none,false,true,0⟩],[⟨1,0,false,some (.own 1),some 3,none,false,true,0⟩],[⟨1,0,false,none,some 3,none,false,false,0⟩],[⟨2,0,false,some (.own 1),some 2,none,false,true,0⟩,⟨3,0,false,some (.own 1),some 2,none,false,true,0⟩],[⟨2,0,false,some (.own 1),some 3,none,false,true,0⟩],[⟨2,0,false,some (.own 1),some 2,none,false,true,0⟩],[⟨3,0,false,some (.own 1),some 3,none,false,true,0⟩],[⟨3,0,false,some (.own 1),some 3,none,false,true,0⟩]]
theorem phphtml_entityt_closed9true : closed emb37_rowst phphtml_entityt_tab9true (EA.start phphtml_M phphtml_entityt 9) (EA.succ phphtml_M phphtml_entityt (9, true)) (EA.eofOk phphtml_M phphtml_entityt (9, true)) = true := by
  decide +kernel
def phphtml_entityt_C9true : MCert phphtml_M phphtml_entityt (9, true) := ⟨emb37_Dt, phphtml_entityt_tab9true, phphtml_entityt_closed9true, (fun _ => ⟨by decide +kernel, by decide +kernel, by decide +kernel⟩)⟩
theorem phphtml_entityt_certs : ∀ u ∈ phphtml_entityt.use, Nonempty (MCert phphtml_M phphtml_entityt u) :=
  (List.forall_mem_cons.mpr ⟨⟨phphtml_entityt_C10false⟩,
  (List.forall_mem_cons.mpr ⟨⟨phphtml_entityt_C7true⟩,
  (List.forall_mem_cons.mpr ⟨⟨phphtml_entityt_C8true⟩,
  (List.forall_mem_cons.mpr ⟨⟨phphtml_entityt_C9true⟩,
  (fun _ h => nomatch h)⟩)⟩)⟩)⟩)

end Ohcount.Cert
