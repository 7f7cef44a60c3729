import Verif.Cert.E1
import Verif.Cert.E2
import Verif.Cert.E3
import Verif.Cert.E4
import Verif.Cert.N6
import Verif.Cert.N8
import Verif.EmbedRegion

/-! Generated by tools/gen_regions.py. -/

namespace Ohcount.Cert
open Ohcount.Ragel Ohcount.Gram

set_option maxRecDepth 100000

/-- `Css.css_line` in machine 0 of `Emb.Html.parser`. -/
def reg0_ms : List Nat := [4294967808,140737488355328,549755813888,17179869184,8192,1024,4096,115792089237316195423570985008687907853269984665640564039457584007908834656767,4398046511104,115792089237316195423570985008687907853269984665640564039457584007908834658815,115792089237316195423570985008687907853269984665635612279300442486259482348031,4951760157141521099596496896,115792089237316195423570985008687907853269984665640564039457584007913129626623,115792089237316195423570985008687907853269984665635612279300442486792058292735,1152921504606846976,41538374877950027585161004031410176,83076749755900055170322008062820352,2658455992188801765450304258010251264,324518553733984590509070343995392,2535301201046754613352112062464,4611686018427387904]
def reg0_cs : List (Nat × Nat) := [(0,115792089237316195423570985008687907853267201267464934692415126823891172835839),(9,4294967808),(10,1024),(11,2048),(12,4096),(13,8192),(34,17179869184),(39,549755813888),(42,4398046511104),(47,140737488355328),(60,1152921504606846976),(62,4611686018427387904),(69,2535301201046754613352112062464),(76,324518553733984590509070343995392),(83,41538374877950027585161004031410176),(84,83076749755900055170322008062820352),(89,2658455992188801765450304258010251264),(92,4951760157141521099596496896)]
def reg0_tab : List RPair := [⟨[],[],none,256⟩,⟨[0],[14],some (.own 0),256⟩,⟨[34],[48],some .newline,256⟩,⟨[34,38],[48,52],some .newline,256⟩,⟨[23,39],[37,53],some (.own 9),256⟩,⟨[12,39],[26,53],some (.own 9),256⟩,⟨[1,39],[15,53],some (.own 9),256⟩,⟨[30],[44],some (.own 9),256⟩,⟨[29],[43],some (.own 9),256⟩,⟨[26],[40],some (.own 9),256⟩,⟨[27],[41],some (.own 9),256⟩,⟨[24],[38],some (.own 9),256⟩,⟨[24,28],[38,42],some (.own 9),256⟩,⟨[30],[44],some (.own 9),60⟩,⟨[31],[45],some (.own 9),256⟩,⟨[19],[33],some (.own 9),256⟩,⟨[18],[32],some (.own 9),256⟩,⟨[15],[29],some (.own 9),256⟩,⟨[16],[30],some (.own 9),256⟩,⟨[13],[27],some (.own 9),256⟩,⟨[13,17],[27,31],some (.own 9),256⟩,⟨[19],[33],some (.own 9),60⟩,⟨[20],[34],some (.own 9),256⟩,⟨[2],[16],some (.own 9),256⟩,⟨[30],[44],some .internalNl,256⟩,⟨[29],[43],some .internalNl,256⟩,⟨[26],[40],some .internalNl,256⟩,⟨[27],[41],some .internalNl,256⟩,⟨[24],[38],some .internalNl,256⟩,⟨[24,28],[38,42],some .internalNl,256⟩,⟨[30],[44],some .internalNl,60⟩,⟨[31],[45],some .internalNl,256⟩,⟨[25],[39],some (.own 9),256⟩,⟨[25,26],[39,40],some .internalNl,256⟩,⟨[32],[46],some (.own 9),256⟩,⟨[32],[46],some (.own 9),60⟩,⟨[19],[33],some .internalNl,256⟩,⟨[18],[32],some .internalNl,256⟩,⟨[15],[29],some .internalNl,256⟩,⟨[16],[30],some .internalNl,256⟩,⟨[13],[27],some .internalNl,256⟩,⟨[13,17],[27,31],some .internalNl,256⟩,⟨[19],[33],some .internalNl,60⟩,⟨[20],[34],some .internalNl,256⟩,⟨[14],[28],some (.own 9),256⟩,⟨[14,15],[28,29],some .internalNl,256⟩,⟨[21],[35],some (.own 9),256⟩,⟨[21],[35],some (.own 9),60⟩,⟨[9],[23],some (.own 9),256⟩,⟨[8],[22],some (.own 9),256⟩,⟨[5],[19],some (.own 9),256⟩,⟨[6],[20],some (.own 9),256⟩,⟨[3],[17],some (.own 9),256⟩,⟨[3,7],[17,21],some (.own 9),256⟩,⟨[9,10],[23,24],some (.own 9),256⟩,⟨[9],[23],some (.own 9),60⟩,⟨[25],[39],some .internalNl,256⟩,⟨[32],[46],some .internalNl,256⟩,⟨[32],[46],some .internalNl,60⟩,⟨[14],[28],some .internalNl,256⟩,⟨[21],[35],some .internalNl,256⟩,⟨[21],[35],some .internalNl,60⟩,⟨[9],[23],some .internalNl,256⟩,⟨[8],[22],some .internalNl,256⟩,⟨[5],[19],some .internalNl,256⟩,⟨[6],[20],some .internalNl,256⟩,⟨[3],[17],some .internalNl,256⟩,⟨[3,7],[17,21],some .internalNl,256⟩,⟨[9,10],[23,24],some .internalNl,256⟩,⟨[9],[23],some .internalNl,60⟩,⟨[4],[18],some (.own 9),256⟩,⟨[4,5],[18,19],some .internalNl,256⟩,⟨[4],[18],some .internalNl,256⟩]
theorem reg0_masksS : masksIn css_line_M.nfa reg0_ms = true := by decide +kernel
theorem reg0_masksK : masksIn (⟨emb0_nfa, [.none,.cb 1,.none,.none,.cb 1,.cb 1], true⟩ : EMach).nfa reg0_ms = true := by decide +kernel
theorem reg0_repOk : repOk reg0_ms reg0_cs = true := by decide +kernel
theorem reg0_crS : crOnly css_line_M.nfa = true := by decide +kernel
theorem reg0_crK : crOnly (⟨emb0_nfa, [.none,.cb 1,.none,.none,.cb 1,.cb 1], true⟩ : EMach).nfa = true := by decide +kernel
theorem reg0_ok : regOk css_line_M ⟨emb0_nfa, [.none,.cb 1,.none,.none,.cb 1,.cb 1], true⟩ 1 ⟨[], [(60, 47)]⟩ (reg0_cs.map (·.1)) reg0_tab = true := by decide +kernel

def html_reg0 : RegCert Css.css_line.machine Emb.Html.parser.multi 0 1 ⟨[], [(60, 47)]⟩ := by
  rw [css_line_M_eq, html_M_eq]
  exact ⟨reg0_ms, reg0_cs, reg0_tab, by decide +kernel, rfl, reg0_masksS, reg0_masksK, by decide +kernel, reg0_repOk, by decide +kernel, reg0_crS, reg0_crK, reg0_ok⟩

/-- `Javascript.js_line` in machine 1 of `Emb.Html.parser`. -/
def reg1_ms : List Nat := [4294967808,140737488355328,549755813888,17179869184,8192,1024,4096,115792089237316195423570985008687907853269984665640564039457584007908834656767,115792089237316195423570985008687907853269984665640564039457584007913129626623,4398046511104,115792089237316195423570985008687907853269984665640564039457584007908834658815,4951760157141521099596496896,115792089237316195423570985008687907853269984665635612279300442486259482361343,115792089237316195423570985008687907853269984665635612279300442486792058306047,115792089237316195423570985008687907853269984665640564039457583862777594773503,115792089237316195423570985008687907853269984665635612279300442346076044774399,1152921504606846976,41538374877950027585161004031410176,633825300261688653338028015616,20769187438975013792580502015705088,40564819216748073813633792999424,5192296859743753448145125503926272,83076749755900055170322008062820352,4611686018427387904]
def reg1_cs : List (Nat × Nat) := [(0,115792089237316195423570985008687907853269834047828035193434919057972298498559),(9,4294967808),(10,1024),(11,2048),(12,4096),(13,8192),(34,17179869184),(39,549755813888),(42,4398046511104),(47,140737488355328),(60,1152921504606846976),(62,4611686018427387904),(67,633825300261688653338028015616),(73,40564819216748073813633792999424),(80,5192296859743753448145125503926272),(82,20769187438975013792580502015705088),(83,41538374877950027585161004031410176),(84,83076749755900055170322008062820352),(92,4951760157141521099596496896)]
def reg1_tab : List RPair := [⟨[],[],none,256⟩,⟨[0],[15],some (.own 0),256⟩,⟨[45],[60],some .newline,256⟩,⟨[45,49],[60,64],some .newline,256⟩,⟨[27,50],[42,65],some (.own 7),256⟩,⟨[15,50],[30,65],some (.own 7),256⟩,⟨[1,4,39,50],[16,19,54,65],some (.own 7),256⟩,⟨[35],[50],some (.own 7),256⟩,⟨[34],[49],some (.own 7),256⟩,⟨[35],[50],some (.own 7),60⟩,⟨[28,36],[43,51],some (.own 7),256⟩,⟨[23],[38],some (.own 7),256⟩,⟨[22],[37],some (.own 7),256⟩,⟨[23],[38],some (.own 7),60⟩,⟨[16,24],[31,39],some (.own 7),256⟩,⟨[40],[55],some (.own 7),256⟩,⟨[5],[20],some (.own 7),256⟩,⟨[2],[17],some (.own 7),256⟩,⟨[40],[55],some (.own 7),60⟩,⟨[37],[52],some (.own 7),256⟩,⟨[31],[46],some (.own 7),256⟩,⟨[32],[47],some (.own 7),256⟩,⟨[29],[44],some (.own 7),256⟩,⟨[29,33],[44,48],some (.own 7),256⟩,⟨[37],[52],some (.own 7),60⟩,⟨[25],[40],some (.own 7),256⟩,⟨[19],[34],some (.own 7),256⟩,⟨[20],[35],some (.own 7),256⟩,⟨[17],[32],some (.own 7),256⟩,⟨[17,21],[32,36],some (.own 7),256⟩,⟨[25],[40],some (.own 7),60⟩,⟨[41],[56],some (.own 7),256⟩,⟨[41],[56],some (.own 7),60⟩,⟨[42],[57],some (.own 7),256⟩,⟨[12],[27],some (.own 7),256⟩,⟨[11],[26],some (.own 7),256⟩,⟨[8],[23],some (.own 7),256⟩,⟨[9],[24],some (.own 7),256⟩,⟨[6],[21],some (.own 7),256⟩,⟨[6,10],[21,25],some (.own 7),256⟩,⟨[12,13],[27,28],some (.own 7),256⟩,⟨[12],[27],some (.own 7),60⟩,⟨[3],[18],some (.own 7),256⟩,⟨[3],[18],some (.own 7),60⟩,⟨[35],[50],some .internalNl,256⟩,⟨[34],[49],some .internalNl,256⟩,⟨[35],[50],some .internalNl,60⟩,⟨[28,36],[43,51],some .internalNl,256⟩,⟨[30],[45],some (.own 7),256⟩,⟨[30,35],[45,50],some .internalNl,256⟩,⟨[23],[38],some .internalNl,256⟩,⟨[22],[37],some .internalNl,256⟩,⟨[23],[38],some .internalNl,60⟩,⟨[16,24],[31,39],some .internalNl,256⟩,⟨[18],[33],some (.own 7),256⟩,⟨[18,23],[33,38],some .internalNl,256⟩,⟨[43],[58],some (.own 7),256⟩,⟨[43],[58],some (.own 7),60⟩,⟨[12],[27],some .internalNl,256⟩,⟨[11],[26],some .internalNl,256⟩,⟨[8],[23],some .internalNl,256⟩,⟨[9],[24],some .internalNl,256⟩,⟨[6],[21],some .internalNl,256⟩,⟨[6,10],[21,25],some .internalNl,256⟩,⟨[12,13],[27,28],some .internalNl,256⟩,⟨[12],[27],some .internalNl,60⟩,⟨[7],[22],some (.own 7),256⟩,⟨[7,8],[22,23],some .internalNl,256⟩,⟨[37],[52],some .internalNl,256⟩,⟨[31],[46],some .internalNl,256⟩,⟨[32],[47],some .internalNl,256⟩,⟨[29],[44],some .internalNl,256⟩,⟨[29,33],[44,48],some .internalNl,256⟩,⟨[37],[52],some .internalNl,60⟩,⟨[25],[40],some .internalNl,256⟩,⟨[19],[34],some .internalNl,256⟩,⟨[20],[35],some .internalNl,256⟩,⟨[17],[32],some .internalNl,256⟩,⟨[17,21],[32,36],some .internalNl,256⟩,⟨[25],[40],some .internalNl,60⟩,⟨[7],[22],some .internalNl,256⟩,⟨[30],[45],some .internalNl,256⟩,⟨[18],[33],some .internalNl,256⟩]
theorem reg1_masksS : masksIn js_line_M.nfa reg1_ms = true := by decide +kernel
theorem reg1_masksK : masksIn (⟨emb1_nfa, [.none,.cb 2,.none,.none,.cb 2,.cb 2], true⟩ : EMach).nfa reg1_ms = true := by decide +kernel
theorem reg1_repOk : repOk reg1_ms reg1_cs = true := by decide +kernel
theorem reg1_crS : crOnly js_line_M.nfa = true := by decide +kernel
theorem reg1_crK : crOnly (⟨emb1_nfa, [.none,.cb 2,.none,.none,.cb 2,.cb 2], true⟩ : EMach).nfa = true := by decide +kernel
theorem reg1_ok : regOk js_line_M ⟨emb1_nfa, [.none,.cb 2,.none,.none,.cb 2,.cb 2], true⟩ 2 ⟨[], [(60, 47)]⟩ (reg1_cs.map (·.1)) reg1_tab = true := by decide +kernel

def html_reg1 : RegCert Javascript.js_line.machine Emb.Html.parser.multi 1 2 ⟨[], [(60, 47)]⟩ := by
  rw [js_line_M_eq, html_M_eq]
  exact ⟨reg1_ms, reg1_cs, reg1_tab, by decide +kernel, rfl, reg1_masksS, reg1_masksK, by decide +kernel, reg1_repOk, by decide +kernel, reg1_crS, reg1_crK, reg1_ok⟩

def jsp_reg3 : RegCert Css.css_line.machine Emb.Jsp.parser.multi 3 1 ⟨[], [(60, 47)]⟩ := by
  rw [css_line_M_eq, jsp_M_eq]
  exact ⟨reg0_ms, reg0_cs, reg0_tab, by decide +kernel, rfl, reg0_masksS, reg0_masksK, by decide +kernel, reg0_repOk, by decide +kernel, reg0_crS, reg0_crK, reg0_ok⟩

def jsp_reg4 : RegCert Javascript.js_line.machine Emb.Jsp.parser.multi 4 2 ⟨[], [(60, 47)]⟩ := by
  rw [js_line_M_eq, jsp_M_eq]
  exact ⟨reg1_ms, reg1_cs, reg1_tab, by decide +kernel, rfl, reg1_masksS, reg1_masksK, by decide +kernel, reg1_repOk, by decide +kernel, reg1_crS, reg1_crK, reg1_ok⟩

def phphtml_reg3 : RegCert Css.css_line.machine Emb.Phphtml.parser.multi 3 1 ⟨[], [(60, 47)]⟩ := by
  rw [css_line_M_eq, phphtml_M_eq]
  exact ⟨reg0_ms, reg0_cs, reg0_tab, by decide +kernel, rfl, reg0_masksS, reg0_masksK, by decide +kernel, reg0_repOk, by decide +kernel, reg0_crS, reg0_crK, reg0_ok⟩

def phphtml_reg4 : RegCert Javascript.js_line.machine Emb.Phphtml.parser.multi 4 2 ⟨[], [(60, 47)]⟩ := by
  rw [js_line_M_eq, phphtml_M_eq]
  exact ⟨reg1_ms, reg1_cs, reg1_tab, by decide +kernel, rfl, reg1_masksS, reg1_masksK, by decide +kernel, reg1_repOk, by decide +kernel, reg1_crS, reg1_crK, reg1_ok⟩

def clearsilverhtml_reg3 : RegCert Css.css_line.machine Emb.Clearsilverhtml.parser.multi 3 1 ⟨[], [(60, 47)]⟩ := by
  rw [css_line_M_eq, clearsilverhtml_M_eq]
  exact ⟨reg0_ms, reg0_cs, reg0_tab, by decide +kernel, rfl, reg0_masksS, reg0_masksK, by decide +kernel, reg0_repOk, by decide +kernel, reg0_crS, reg0_crK, reg0_ok⟩

def clearsilverhtml_reg4 : RegCert Javascript.js_line.machine Emb.Clearsilverhtml.parser.multi 4 2 ⟨[], [(60, 47)]⟩ := by
  rw [js_line_M_eq, clearsilverhtml_M_eq]
  exact ⟨reg1_ms, reg1_cs, reg1_tab, by decide +kernel, rfl, reg1_masksS, reg1_masksK, by decide +kernel, reg1_repOk, by decide +kernel, reg1_crS, reg1_crK, reg1_ok⟩

def csAspx_reg3 : RegCert Css.css_line.machine Emb.CsAspx.parser.multi 3 1 ⟨[], [(60, 47)]⟩ := by
  rw [css_line_M_eq, csAspx_M_eq]
  exact ⟨reg0_ms, reg0_cs, reg0_tab, by decide +kernel, rfl, reg0_masksS, reg0_masksK, by decide +kernel, reg0_repOk, by decide +kernel, reg0_crS, reg0_crK, reg0_ok⟩

def csAspx_reg4 : RegCert Javascript.js_line.machine Emb.CsAspx.parser.multi 4 2 ⟨[], [(60, 47)]⟩ := by
  rw [js_line_M_eq, csAspx_M_eq]
  exact ⟨reg1_ms, reg1_cs, reg1_tab, by decide +kernel, rfl, reg1_masksS, reg1_masksK, by decide +kernel, reg1_repOk, by decide +kernel, reg1_crS, reg1_crK, reg1_ok⟩

def rhtml_reg3 : RegCert Css.css_line.machine Emb.Rhtml.parser.multi 3 1 ⟨[], [(60, 47)]⟩ := by
  rw [css_line_M_eq, rhtml_M_eq]
  exact ⟨reg0_ms, reg0_cs, reg0_tab, by decide +kernel, rfl, reg0_masksS, reg0_masksK, by decide +kernel, reg0_repOk, by decide +kernel, reg0_crS, reg0_crK, reg0_ok⟩

def rhtml_reg4 : RegCert Javascript.js_line.machine Emb.Rhtml.parser.multi 4 2 ⟨[], [(60, 47)]⟩ := by
  rw [js_line_M_eq, rhtml_M_eq]
  exact ⟨reg1_ms, reg1_cs, reg1_tab, by decide +kernel, rfl, reg1_masksS, reg1_masksK, by decide +kernel, reg1_repOk, by decide +kernel, reg1_crS, reg1_crK, reg1_ok⟩

def vbAspx_reg3 : RegCert Css.css_line.machine Emb.VbAspx.parser.multi 3 1 ⟨[], [(60, 47)]⟩ := by
  rw [css_line_M_eq, vbAspx_M_eq]
  exact ⟨reg0_ms, reg0_cs, reg0_tab, by decide +kernel, rfl, reg0_masksS, reg0_masksK, by decide +kernel, reg0_repOk, by decide +kernel, reg0_crS, reg0_crK, reg0_ok⟩

def vbAspx_reg4 : RegCert Javascript.js_line.machine Emb.VbAspx.parser.multi 4 2 ⟨[], [(60, 47)]⟩ := by
  rw [js_line_M_eq, vbAspx_M_eq]
  exact ⟨reg1_ms, reg1_cs, reg1_tab, by decide +kernel, rfl, reg1_masksS, reg1_masksK, by decide +kernel, reg1_repOk, by decide +kernel, reg1_crS, reg1_crK, reg1_ok⟩

end Ohcount.Cert
