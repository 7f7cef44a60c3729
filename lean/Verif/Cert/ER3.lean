import Verif.Cert.E2
import Verif.Cert.E3
import Verif.Cert.E4
import Verif.Cert.N1
import Verif.Cert.N10
import Verif.Cert.N12
import Verif.Cert.N4
import Verif.EmbedRegion

/-! Generated by tools/gen_regions.py. -/

namespace Ohcount.Cert
open Ohcount.Ragel Ohcount.Gram

set_option maxRecDepth 100000

/-- `Java.java_line` in machine 5 of `Emb.Jsp.parser`. -/
def reg4_ms : List Nat := [4294967808,140737488355328,549755813888,17179869184,8192,1024,4096,115792089237316195423570985008687907853269984665640564039457584007908834656767,115792089237316195423570985008687907853269984665640564039457584007913129626623,4398046511104,115792089237316195423570985008687907853269984665640564039457584007908834658815,115792089237316195423570985008687907853269984665635612279300442486263777315839,4951760157141521099596496896,115792089237316195423570985008687907853269984665635612279300442486796353260543,137438953472,4611686018427387904]
def reg4_cs : List (Nat × Nat) := [(0,115792089237316195423570985008687907853269984665635612279295830654950901268991),(9,4294967808),(10,1024),(11,2048),(12,4096),(13,8192),(34,17179869184),(37,137438953472),(39,549755813888),(42,4398046511104),(47,140737488355328),(62,4611686018427387904),(92,4951760157141521099596496896)]
def reg4_tab : List RPair := [⟨[],[],none,256⟩,⟨[0],[2],some (.own 0),256⟩,⟨[25],[27],some .newline,256⟩,⟨[25,29],[27,31],some .newline,256⟩,⟨[20,30],[22,32],some (.own 7),256⟩,⟨[15,30],[17,32],some (.own 7),256⟩,⟨[1,4,30],[3,6,32],some (.own 7),256⟩,⟨[21],[23],some (.own 7),256⟩,⟨[21],[23],some (.own 7),37⟩,⟨[22],[24],some (.own 7),256⟩,⟨[16],[18],some (.own 7),256⟩,⟨[16],[18],some (.own 7),37⟩,⟨[17],[19],some (.own 7),256⟩,⟨[5],[7],some (.own 7),256⟩,⟨[2],[4],some (.own 7),256⟩,⟨[23],[25],some (.own 7),256⟩,⟨[23],[25],some (.own 7),37⟩,⟨[18],[20],some (.own 7),256⟩,⟨[18],[20],some (.own 7),37⟩,⟨[12],[14],some (.own 7),256⟩,⟨[11],[13],some (.own 7),256⟩,⟨[8],[10],some (.own 7),256⟩,⟨[9],[11],some (.own 7),256⟩,⟨[6],[8],some (.own 7),256⟩,⟨[6,10],[8,12],some (.own 7),256⟩,⟨[12],[14],some (.own 7),37⟩,⟨[12,13],[14,15],some (.own 7),256⟩,⟨[3],[5],some (.own 7),256⟩,⟨[3],[5],some (.own 7),37⟩,⟨[12],[14],some .internalNl,256⟩,⟨[11],[13],some .internalNl,256⟩,⟨[8],[10],some .internalNl,256⟩,⟨[9],[11],some .internalNl,256⟩,⟨[6],[8],some .internalNl,256⟩,⟨[6,10],[8,12],some .internalNl,256⟩,⟨[12],[14],some .internalNl,37⟩,⟨[12,13],[14,15],some .internalNl,256⟩,⟨[7],[9],some (.own 7),256⟩,⟨[7,8],[9,10],some .internalNl,256⟩,⟨[7],[9],some .internalNl,256⟩]
theorem reg4_masksS : masksIn java_line_M.nfa reg4_ms = true := by decide +kernel
theorem reg4_masksK : masksIn (⟨emb28_nfa, [.none,.cb 3,.none,.none,.cb 3,.cb 3], true⟩ : EMach).nfa reg4_ms = true := by decide +kernel
theorem reg4_repOk : repOk reg4_ms reg4_cs = true := by decide +kernel
theorem reg4_crS : crOnly java_line_M.nfa = true := by decide +kernel
theorem reg4_crK : crOnly (⟨emb28_nfa, [.none,.cb 3,.none,.none,.cb 3,.cb 3], true⟩ : EMach).nfa = true := by decide +kernel
theorem reg4_ok : regOk java_line_M ⟨emb28_nfa, [.none,.cb 3,.none,.none,.cb 3,.cb 3], true⟩ 3 ⟨[], [(37, 62)]⟩ (reg4_cs.map (·.1)) reg4_tab = true := by decide +kernel

def jsp_reg5 : RegCert Java.java_line.machine Emb.Jsp.parser.multi 5 3 ⟨[], [(37, 62)]⟩ := by
  rw [java_line_M_eq, jsp_M_eq]
  exact ⟨reg4_ms, reg4_cs, reg4_tab, by decide +kernel, rfl, reg4_masksS, reg4_masksK, by decide +kernel, reg4_repOk, by decide +kernel, reg4_crS, reg4_crK, reg4_ok⟩

/-- `Clearsilver.cs_line` in machine 5 of `Emb.Clearsilverhtml.parser`. -/
def reg5_ms : List Nat := [4294967808,34359738368,17179869184,8192,1024,4096,115792089237316195423570985008687907853269984665640564039457584007908834656767,115792089237316195423570985008687907853269984665640564039457584007913129626623,115792089237316195423570985008687907853269984665635612279300442486796353260543,4951760157141521099596496896,9223372036854775808,4611686018427387904]
def reg5_cs : List (Nat × Nat) := [(0,115792089237316195423570985008687907853269984665635612279286607428702416388607),(9,4294967808),(10,1024),(11,2048),(12,4096),(13,8192),(34,17179869184),(35,34359738368),(62,4611686018427387904),(63,9223372036854775808),(92,4951760157141521099596496896)]
def reg5_tab : List RPair := [⟨[],[],none,256⟩,⟨[0],[2],some (.own 0),256⟩,⟨[8],[10],some .newline,256⟩,⟨[8,12],[10,14],some .newline,256⟩,⟨[3,13],[5,15],some (.own 3),256⟩,⟨[1,13],[3,15],some (.own 3),256⟩,⟨[4],[6],some (.own 3),256⟩,⟨[4],[6],some (.own 3),63⟩,⟨[5],[7],some (.own 3),256⟩,⟨[2],[4],some (.own 3),256⟩,⟨[2],[4],some (.own 3),63⟩,⟨[6],[8],some (.own 3),256⟩,⟨[6],[8],some (.own 3),63⟩]
theorem reg5_masksS : masksIn cs_line_M.nfa reg5_ms = true := by decide +kernel
theorem reg5_masksK : masksIn (⟨emb42_nfa, [.none,.cb 3,.none,.none,.cb 3,.cb 3], true⟩ : EMach).nfa reg5_ms = true := by decide +kernel
theorem reg5_repOk : repOk reg5_ms reg5_cs = true := by decide +kernel
theorem reg5_crS : crOnly cs_line_M.nfa = true := by decide +kernel
theorem reg5_crK : crOnly (⟨emb42_nfa, [.none,.cb 3,.none,.none,.cb 3,.cb 3], true⟩ : EMach).nfa = true := by decide +kernel
theorem reg5_ok : regOk cs_line_M ⟨emb42_nfa, [.none,.cb 3,.none,.none,.cb 3,.cb 3], true⟩ 3 ⟨[], [(63, 62)]⟩ (reg5_cs.map (·.1)) reg5_tab = true := by decide +kernel

def clearsilverhtml_reg5 : RegCert Clearsilver.cs_line.machine Emb.Clearsilverhtml.parser.multi 5 3 ⟨[], [(63, 62)]⟩ := by
  rw [cs_line_M_eq, clearsilverhtml_M_eq]
  exact ⟨reg5_ms, reg5_cs, reg5_tab, by decide +kernel, rfl, reg5_masksS, reg5_masksK, by decide +kernel, reg5_repOk, by decide +kernel, reg5_crS, reg5_crK, reg5_ok⟩

/-- `C.c_line` in machine 5 of `Emb.CsAspx.parser`. -/
def reg6_ms : List Nat := [4294967808,140737488355328,549755813888,17179869184,8192,1024,4096,115792089237316195423570985008687907853269984665640564039457584007908834656767,4951760157141521099596496896,115792089237316195423570985008687907853269984665640564039457584007908834658815,4398046511104,115792089237316195423570985008687907853269984665635612279300442486259482361343,115792089237316195423570985008687907853269984665640564039457584007913129626623,115792089237316195423570985008687907853269984665635612279300442486792058306047,137438953472,1152921504606846976,4611686018427387904,41538374877950027585161004031410176,633825300261688653338028015616,20769187438975013792580502015705088,40564819216748073813633792999424,5192296859743753448145125503926272,83076749755900055170322008062820352]
def reg6_cs : List (Nat × Nat) := [(0,115792089237316195423570985008687907853269834047828035193434919057834859545087),(9,4294967808),(10,1024),(11,2048),(12,4096),(13,8192),(34,17179869184),(37,137438953472),(39,549755813888),(42,4398046511104),(47,140737488355328),(60,1152921504606846976),(62,4611686018427387904),(67,633825300261688653338028015616),(73,40564819216748073813633792999424),(80,5192296859743753448145125503926272),(82,20769187438975013792580502015705088),(83,41538374877950027585161004031410176),(84,83076749755900055170322008062820352),(92,4951760157141521099596496896)]
def reg6_tab : List RPair := [⟨[],[],none,256⟩,⟨[0],[17],some (.own 0),256⟩,⟨[46],[63],some .newline,256⟩,⟨[46,50],[63,67],some .newline,256⟩,⟨[34,51],[51,68],some (.own 8),256⟩,⟨[22,51],[39,68],some (.own 8),256⟩,⟨[1,11,51],[18,28,68],some (.own 8),256⟩,⟨[42],[59],some (.own 8),256⟩,⟨[41],[58],some (.own 8),256⟩,⟨[42],[59],some (.own 8),37⟩,⟨[42],[59],some (.own 8),60⟩,⟨[35,43],[52,60],some (.own 8),256⟩,⟨[30],[47],some (.own 8),256⟩,⟨[29],[46],some (.own 8),256⟩,⟨[30],[47],some (.own 8),37⟩,⟨[30],[47],some (.own 8),60⟩,⟨[23,31],[40,48],some (.own 8),256⟩,⟨[12],[29],some (.own 8),256⟩,⟨[2],[19],some (.own 8),256⟩,⟨[44],[61],some (.own 8),256⟩,⟨[38],[55],some (.own 8),256⟩,⟨[39],[56],some (.own 8),256⟩,⟨[36],[53],some (.own 8),256⟩,⟨[36,40],[53,57],some (.own 8),256⟩,⟨[44],[61],some (.own 8),37⟩,⟨[44],[61],some (.own 8),60⟩,⟨[32],[49],some (.own 8),256⟩,⟨[26],[43],some (.own 8),256⟩,⟨[27],[44],some (.own 8),256⟩,⟨[24],[41],some (.own 8),256⟩,⟨[24,28],[41,45],some (.own 8),256⟩,⟨[32],[49],some (.own 8),37⟩,⟨[32],[49],some (.own 8),60⟩,⟨[19],[36],some (.own 8),256⟩,⟨[18],[35],some (.own 8),256⟩,⟨[15],[32],some (.own 8),256⟩,⟨[16],[33],some (.own 8),256⟩,⟨[13],[30],some (.own 8),256⟩,⟨[13,17],[30,34],some (.own 8),256⟩,⟨[19],[36],some (.own 8),37⟩,⟨[19,20],[36,37],some (.own 8),256⟩,⟨[19],[36],some (.own 8),60⟩,⟨[10],[27],some (.own 8),256⟩,⟨[9],[26],some (.own 8),256⟩,⟨[10],[27],some (.own 8),37⟩,⟨[10],[27],some (.own 8),60⟩,⟨[3,10],[20,27],some (.own 8),256⟩,⟨[42],[59],some .internalNl,256⟩,⟨[41],[58],some .internalNl,256⟩,⟨[42],[59],some .internalNl,37⟩,⟨[42],[59],some .internalNl,60⟩,⟨[35,43],[52,60],some .internalNl,256⟩,⟨[37],[54],some (.own 8),256⟩,⟨[37,42],[54,59],some .internalNl,256⟩,⟨[30],[47],some .internalNl,256⟩,⟨[29],[46],some .internalNl,256⟩,⟨[30],[47],some .internalNl,37⟩,⟨[30],[47],some .internalNl,60⟩,⟨[23,31],[40,48],some .internalNl,256⟩,⟨[25],[42],some (.own 8),256⟩,⟨[25,30],[42,47],some .internalNl,256⟩,⟨[19],[36],some .internalNl,256⟩,⟨[18],[35],some .internalNl,256⟩,⟨[15],[32],some .internalNl,256⟩,⟨[16],[33],some .internalNl,256⟩,⟨[13],[30],some .internalNl,256⟩,⟨[13,17],[30,34],some .internalNl,256⟩,⟨[19],[36],some .internalNl,37⟩,⟨[19,20],[36,37],some .internalNl,256⟩,⟨[19],[36],some .internalNl,60⟩,⟨[14],[31],some (.own 8),256⟩,⟨[14,15],[31,32],some .internalNl,256⟩,⟨[6],[23],some (.own 8),256⟩,⟨[7],[24],some (.own 8),256⟩,⟨[4],[21],some (.own 8),256⟩,⟨[4,8],[21,25],some (.own 8),256⟩,⟨[44],[61],some .internalNl,256⟩,⟨[38],[55],some .internalNl,256⟩,⟨[39],[56],some .internalNl,256⟩,⟨[36],[53],some .internalNl,256⟩,⟨[36,40],[53,57],some .internalNl,256⟩,⟨[44],[61],some .internalNl,37⟩,⟨[44],[61],some .internalNl,60⟩,⟨[32],[49],some .internalNl,256⟩,⟨[26],[43],some .internalNl,256⟩,⟨[27],[44],some .internalNl,256⟩,⟨[24],[41],some .internalNl,256⟩,⟨[24,28],[41,45],some .internalNl,256⟩,⟨[32],[49],some .internalNl,37⟩,⟨[32],[49],some .internalNl,60⟩,⟨[14],[31],some .internalNl,256⟩,⟨[10],[27],some .internalNl,256⟩,⟨[9],[26],some .internalNl,256⟩,⟨[10],[27],some .internalNl,37⟩,⟨[10],[27],some .internalNl,60⟩,⟨[3,10],[20,27],some .internalNl,256⟩,⟨[5],[22],some (.own 8),256⟩,⟨[37],[54],some .internalNl,256⟩,⟨[25],[42],some .internalNl,256⟩,⟨[6],[23],some .internalNl,256⟩,⟨[7],[24],some .internalNl,256⟩,⟨[4],[21],some .internalNl,256⟩,⟨[4,8],[21,25],some .internalNl,256⟩,⟨[5],[22],some .internalNl,256⟩]
theorem reg6_masksS : masksIn c_line_M.nfa reg6_ms = true := by decide +kernel
theorem reg6_masksK : masksIn (⟨emb46_nfa, [.none,.cb 3,.none,.none,.cb 3,.cb 3], true⟩ : EMach).nfa reg6_ms = true := by decide +kernel
theorem reg6_repOk : repOk reg6_ms reg6_cs = true := by decide +kernel
theorem reg6_crS : crOnly c_line_M.nfa = true := by decide +kernel
theorem reg6_crK : crOnly (⟨emb46_nfa, [.none,.cb 3,.none,.none,.cb 3,.cb 3], true⟩ : EMach).nfa = true := by decide +kernel
theorem reg6_ok : regOk c_line_M ⟨emb46_nfa, [.none,.cb 3,.none,.none,.cb 3,.cb 3], true⟩ 3 ⟨[], [(37, 62), (60, 47)]⟩ (reg6_cs.map (·.1)) reg6_tab = true := by decide +kernel

def csAspx_reg5 : RegCert C.c_line.machine Emb.CsAspx.parser.multi 5 3 ⟨[], [(37, 62), (60, 47)]⟩ := by
  rw [c_line_M_eq, csAspx_M_eq]
  exact ⟨reg6_ms, reg6_cs, reg6_tab, by decide +kernel, rfl, reg6_masksS, reg6_masksK, by decide +kernel, reg6_repOk, by decide +kernel, reg6_crS, reg6_crK, reg6_ok⟩

/-- `VisualBasic.vb_line` in machine 5 of `Emb.VbAspx.parser`. -/
def reg7_ms : List Nat := [4294967808,549755813888,20769187438975013792580502015705088,17179869184,8192,1024,4096,115792089237316195423570985008687907853269984665640564039457584007908834656767,115792089237316195423570985008687907853269984665640564039457584007913129626623,2535301201046754613352112062464,649037107467969181018140687990784,115792089237316195423570985008687907853269984665635612279300442486796353260543,4951760157141521099596496896,137438953472,1152921504606846976,4611686018427387904,140737488355328,41538374877950027585161004031410176,633825300261688653338028015616,40564819216748073813633792999424,5192296859743753448145125503926272,83076749755900055170322008062820352]
def reg7_cs : List (Nat × Nat) := [(0,115792089237316195423570985008687907853269833396255626524418983430740106002943),(9,4294967808),(10,1024),(11,2048),(12,4096),(13,8192),(34,17179869184),(37,137438953472),(39,549755813888),(47,140737488355328),(60,1152921504606846976),(62,4611686018427387904),(67,633825300261688653338028015616),(69,2535301201046754613352112062464),(73,40564819216748073813633792999424),(77,649037107467969181018140687990784),(80,5192296859743753448145125503926272),(82,20769187438975013792580502015705088),(83,41538374877950027585161004031410176),(84,83076749755900055170322008062820352),(92,4951760157141521099596496896)]
def reg7_tab : List RPair := [⟨[],[],none,256⟩,⟨[0],[17],some (.own 0),256⟩,⟨[11],[28],some .newline,256⟩,⟨[11,15],[28,32],some .newline,256⟩,⟨[6,16],[23,33],some (.own 3),256⟩,⟨[1,16],[18,33],some (.own 3),256⟩,⟨[2,16],[19,33],some (.own 3),256⟩,⟨[7],[24],some (.own 3),256⟩,⟨[7],[24],some (.own 3),37⟩,⟨[7],[24],some (.own 3),60⟩,⟨[8],[25],some (.own 3),256⟩,⟨[5],[22],some (.own 3),256⟩,⟨[5],[22],some (.own 3),37⟩,⟨[5],[22],some (.own 3),60⟩,⟨[3],[20],some (.own 3),256⟩,⟨[9],[26],some (.own 3),256⟩,⟨[9],[26],some (.own 3),37⟩,⟨[9],[26],some (.own 3),60⟩,⟨[4],[21],some (.own 3),256⟩]
theorem reg7_masksS : masksIn vb_line_M.nfa reg7_ms = true := by decide +kernel
theorem reg7_masksK : masksIn (⟨emb52_nfa, [.none,.cb 3,.none,.none,.cb 3,.cb 3], true⟩ : EMach).nfa reg7_ms = true := by decide +kernel
theorem reg7_repOk : repOk reg7_ms reg7_cs = true := by decide +kernel
theorem reg7_crS : crOnly vb_line_M.nfa = true := by decide +kernel
theorem reg7_crK : crOnly (⟨emb52_nfa, [.none,.cb 3,.none,.none,.cb 3,.cb 3], true⟩ : EMach).nfa = true := by decide +kernel
theorem reg7_ok : regOk vb_line_M ⟨emb52_nfa, [.none,.cb 3,.none,.none,.cb 3,.cb 3], true⟩ 3 ⟨[], [(37, 62), (60, 47)]⟩ (reg7_cs.map (·.1)) reg7_tab = true := by decide +kernel

def vbAspx_reg5 : RegCert VisualBasic.vb_line.machine Emb.VbAspx.parser.multi 5 3 ⟨[], [(37, 62), (60, 47)]⟩ := by
  rw [vb_line_M_eq, vbAspx_M_eq]
  exact ⟨reg7_ms, reg7_cs, reg7_tab, by decide +kernel, rfl, reg7_masksS, reg7_masksK, by decide +kernel, reg7_repOk, by decide +kernel, reg7_crS, reg7_crK, reg7_ok⟩

end Ohcount.Cert
