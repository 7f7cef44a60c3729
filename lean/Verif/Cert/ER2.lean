import Verif.Cert.E1
import Verif.Cert.E3
import Verif.Cert.N11
import Verif.Cert.N6
import Verif.Cert.N8
import Verif.EmbedRegion

/-! Generated by tools/gen_regions.py. -/

namespace Ohcount.Cert
open Ohcount.Ragel Ohcount.Gram

set_option maxRecDepth 100000

/-- `Css.css_line` in machine 0 of `Emb.Mxml.parser`. -/
def reg2_ms : List Nat := [4294967808,140737488355328,549755813888,17179869184,8192,1024,4096,115792089237316195423570985008687907853269984665640564039457584007908834656767,4398046511104,115792089237316195423570985008687907853269984665640564039457584007908834658815,115792089237316195423570985008687907853269984665635612279300442486259482348031,4951760157141521099596496896,115792089237316195423570985008687907853269984665640564039457584007913129626623,115792089237316195423570985008687907853269984665635612279300442486792058292735,1152921504606846976,649037107316853453566312041152512,1329227995784915872903807060280344576,288230376151711744,9671406556917033397649408,83076749736557242056487941267521536,2658455991569831745807614120560689152,324518553658426726783156020576256,2535301200456458802993406410752,4611686018427387904]
def reg2_cs : List (Nat × Nat) := [(0,115792089237316195423570985008687907853265912928807549127290425524590607319551),(9,4294967808),(10,1024),(11,2048),(12,4096),(13,8192),(34,17179869184),(39,549755813888),(42,4398046511104),(47,140737488355328),(58,288230376151711744),(60,1152921504606846976),(62,4611686018427387904),(83,9671406556917033397649408),(92,4951760157141521099596496896),(101,2535301200456458802993406410752),(108,324518553658426726783156020576256),(109,649037107316853453566312041152512),(116,83076749736557242056487941267521536),(120,1329227995784915872903807060280344576),(121,2658455991569831745807614120560689152)]
def reg2_tab : List RPair := [⟨[],[],none,256⟩,⟨[0],[11],some (.own 0),256⟩,⟨[34],[45],some .newline,256⟩,⟨[34,38],[45,49],some .newline,256⟩,⟨[23,39],[34,50],some (.own 9),256⟩,⟨[12,39],[23,50],some (.own 9),256⟩,⟨[1,39],[12,50],some (.own 9),256⟩,⟨[30],[41],some (.own 9),256⟩,⟨[29],[40],some (.own 9),256⟩,⟨[26],[37],some (.own 9),256⟩,⟨[27],[38],some (.own 9),256⟩,⟨[24],[35],some (.own 9),256⟩,⟨[24,28],[35,39],some (.own 9),256⟩,⟨[30],[41],some (.own 9),60⟩,⟨[31],[42],some (.own 9),256⟩,⟨[19],[30],some (.own 9),256⟩,⟨[18],[29],some (.own 9),256⟩,⟨[15],[26],some (.own 9),256⟩,⟨[16],[27],some (.own 9),256⟩,⟨[13],[24],some (.own 9),256⟩,⟨[13,17],[24,28],some (.own 9),256⟩,⟨[19],[30],some (.own 9),60⟩,⟨[20],[31],some (.own 9),256⟩,⟨[2],[13],some (.own 9),256⟩,⟨[30],[41],some .internalNl,256⟩,⟨[29],[40],some .internalNl,256⟩,⟨[26],[37],some .internalNl,256⟩,⟨[27],[38],some .internalNl,256⟩,⟨[24],[35],some .internalNl,256⟩,⟨[24,28],[35,39],some .internalNl,256⟩,⟨[30],[41],some .internalNl,60⟩,⟨[31],[42],some .internalNl,256⟩,⟨[25],[36],some (.own 9),256⟩,⟨[25,26],[36,37],some .internalNl,256⟩,⟨[32],[43],some (.own 9),256⟩,⟨[32],[43],some (.own 9),60⟩,⟨[19],[30],some .internalNl,256⟩,⟨[18],[29],some .internalNl,256⟩,⟨[15],[26],some .internalNl,256⟩,⟨[16],[27],some .internalNl,256⟩,⟨[13],[24],some .internalNl,256⟩,⟨[13,17],[24,28],some .internalNl,256⟩,⟨[19],[30],some .internalNl,60⟩,⟨[20],[31],some .internalNl,256⟩,⟨[14],[25],some (.own 9),256⟩,⟨[14,15],[25,26],some .internalNl,256⟩,⟨[21],[32],some (.own 9),256⟩,⟨[21],[32],some (.own 9),60⟩,⟨[9],[20],some (.own 9),256⟩,⟨[8],[19],some (.own 9),256⟩,⟨[5],[16],some (.own 9),256⟩,⟨[6],[17],some (.own 9),256⟩,⟨[3],[14],some (.own 9),256⟩,⟨[3,7],[14,18],some (.own 9),256⟩,⟨[9,10],[20,21],some (.own 9),256⟩,⟨[9],[20],some (.own 9),60⟩,⟨[25],[36],some .internalNl,256⟩,⟨[32],[43],some .internalNl,256⟩,⟨[32],[43],some .internalNl,60⟩,⟨[14],[25],some .internalNl,256⟩,⟨[21],[32],some .internalNl,256⟩,⟨[21],[32],some .internalNl,60⟩,⟨[9],[20],some .internalNl,256⟩,⟨[8],[19],some .internalNl,256⟩,⟨[5],[16],some .internalNl,256⟩,⟨[6],[17],some .internalNl,256⟩,⟨[3],[14],some .internalNl,256⟩,⟨[3,7],[14,18],some .internalNl,256⟩,⟨[9,10],[20,21],some .internalNl,256⟩,⟨[9],[20],some .internalNl,60⟩,⟨[4],[15],some (.own 9),256⟩,⟨[4,5],[15,16],some .internalNl,256⟩,⟨[4],[15],some .internalNl,256⟩]
theorem reg2_masksS : masksIn css_line_M.nfa reg2_ms = true := by decide +kernel
theorem reg2_masksK : masksIn (⟨emb6_nfa, [.none,.cb 1,.none,.none,.cb 1,.cb 1], true⟩ : EMach).nfa reg2_ms = true := by decide +kernel
theorem reg2_repOk : repOk reg2_ms reg2_cs = true := by decide +kernel
theorem reg2_crS : crOnly css_line_M.nfa = true := by decide +kernel
theorem reg2_crK : crOnly (⟨emb6_nfa, [.none,.cb 1,.none,.none,.cb 1,.cb 1], true⟩ : EMach).nfa = true := by decide +kernel
theorem reg2_ok : regOk css_line_M ⟨emb6_nfa, [.none,.cb 1,.none,.none,.cb 1,.cb 1], true⟩ 1 ⟨[], [(60, 47)]⟩ (reg2_cs.map (·.1)) reg2_tab = true := by decide +kernel

def mxml_reg0 : RegCert Css.css_line.machine Emb.Mxml.parser.multi 0 1 ⟨[], [(60, 47)]⟩ := by
  rw [css_line_M_eq, mxml_M_eq]
  exact ⟨reg2_ms, reg2_cs, reg2_tab, by decide +kernel, rfl, reg2_masksS, reg2_masksK, by decide +kernel, reg2_repOk, by decide +kernel, reg2_crS, reg2_crK, reg2_ok⟩

/-- `Actionscript.as_line` in machine 1 of `Emb.Mxml.parser`. -/
def reg3_ms : List Nat := [4294967808,140737488355328,549755813888,17179869184,1152921504606846976,8192,1024,4096,115792089237316195423570985008687907853269984665640564039457584007908834656767,115792089237316195423570985008687907853269984665640564039457584007913129626623,4398046511104,115792089237316195423570985008687907853269984665640564039457584007908834658815,115792089237316195423570985008687907853269984665635612279300442486263777315839,4951760157141521099596496896,115792089237316195423570985008687907853269984665635612279300442486796353260543,8589934592,2475880078570760549798248448,147573952589676412928,295147905179352825856,36893488147419103232,19342813113834066795298816,9903520314283042199192993792,4611686018427387904,649037107316853453566312041152512,1329227995784915872903807060280344576,288230376151711744,9671406556917033397649408,633825300114114700748351602688,20769187434139310514121985316880384,40564819207303340847894502572032,5192296858534827628530496329220096,83076749736557242056487941267521536]
def reg3_cs : List (Nat × Nat) := [(0,115792089237316195423570985008687907853268545709157637892678237540995269902847),(9,4294967808),(10,1024),(11,2048),(12,4096),(13,8192),(33,8589934592),(34,17179869184),(39,549755813888),(42,4398046511104),(47,140737488355328),(58,288230376151711744),(60,1152921504606846976),(62,4611686018427387904),(65,36893488147419103232),(67,147573952589676412928),(68,295147905179352825856),(83,9671406556917033397649408),(84,19342813113834066795298816),(91,2475880078570760549798248448),(92,4951760157141521099596496896),(93,9903520314283042199192993792),(99,633825300114114700748351602688),(105,40564819207303340847894502572032),(109,649037107316853453566312041152512),(112,5192296858534827628530496329220096),(114,20769187434139310514121985316880384),(116,83076749736557242056487941267521536),(120,1329227995784915872903807060280344576)]
def reg3_tab : List RPair := [⟨[],[],none,256⟩,⟨[0],[12],some (.own 0),256⟩,⟨[44],[56],some .newline,256⟩,⟨[44,48],[56,60],some .newline,256⟩,⟨[20,49],[32,61],some (.own 3),256⟩,⟨[15,49],[27,61],some (.own 3),256⟩,⟨[1,4,49],[13,16,61],some (.own 3),256⟩,⟨[25,49],[0,37,61],some (.own 3),60⟩,⟨[21],[33],some (.own 3),256⟩,⟨[21],[33],some (.own 3),60⟩,⟨[22],[34],some (.own 3),256⟩,⟨[16],[28],some (.own 3),256⟩,⟨[16],[28],some (.own 3),60⟩,⟨[17],[29],some (.own 3),256⟩,⟨[5],[17],some (.own 3),256⟩,⟨[2],[14],some (.own 3),256⟩,⟨[26],[38],some (.own 3),256⟩,⟨[23],[35],some (.own 3),256⟩,⟨[23],[35],some (.own 3),60⟩,⟨[18],[30],some (.own 3),256⟩,⟨[18],[30],some (.own 3),60⟩,⟨[12],[24],some (.own 3),256⟩,⟨[11],[23],some (.own 3),256⟩,⟨[8],[20],some (.own 3),256⟩,⟨[9],[21],some (.own 3),256⟩,⟨[6],[18],some (.own 3),256⟩,⟨[6,10],[18,22],some (.own 3),256⟩,⟨[12,13],[24,25],some (.own 3),256⟩,⟨[12],[24],some (.own 3),60⟩,⟨[3],[15],some (.own 3),256⟩,⟨[3],[15],some (.own 3),60⟩,⟨[27],[39],some (.own 3),256⟩,⟨[12],[24],some .internalNl,256⟩,⟨[11],[23],some .internalNl,256⟩,⟨[8],[20],some .internalNl,256⟩,⟨[9],[21],some .internalNl,256⟩,⟨[6],[18],some .internalNl,256⟩,⟨[6,10],[18,22],some .internalNl,256⟩,⟨[12,13],[24,25],some .internalNl,256⟩,⟨[12],[24],some .internalNl,60⟩,⟨[7],[19],some (.own 3),256⟩,⟨[7,8],[19,20],some .internalNl,256⟩,⟨[28],[40],some (.own 3),256⟩,⟨[7],[19],some .internalNl,256⟩,⟨[29],[41],some (.own 3),256⟩,⟨[30],[42],some (.own 3),256⟩,⟨[31],[43],some (.own 3),256⟩,⟨[32],[44],some (.own 3),256⟩,⟨[33],[45],some (.own 3),256⟩,⟨[40],[52],some (.own 3),256⟩,⟨[39],[51],some (.own 3),256⟩,⟨[36],[48],some (.own 3),256⟩,⟨[37],[49],some (.own 3),256⟩,⟨[34],[46],some (.own 3),256⟩,⟨[34,38],[46,50],some (.own 3),256⟩,⟨[40],[52],some (.own 3),60⟩,⟨[40,41],[52,53],some (.own 3),256⟩,⟨[40],[52],some .internalNl,256⟩,⟨[39],[51],some .internalNl,256⟩,⟨[36],[48],some .internalNl,256⟩,⟨[37],[49],some .internalNl,256⟩,⟨[34],[46],some .internalNl,256⟩,⟨[34,38],[46,50],some .internalNl,256⟩,⟨[40],[52],some .internalNl,60⟩,⟨[40,41],[52,53],some .internalNl,256⟩,⟨[35],[47],some (.own 3),256⟩,⟨[35,36],[47,48],some .internalNl,256⟩,⟨[40,41,42],[52,53,54],some (.own 3),256⟩,⟨[35],[47],some .internalNl,256⟩,⟨[40,41,42],[52,53,54],some .internalNl,256⟩]
theorem reg3_masksS : masksIn as_line_M.nfa reg3_ms = true := by decide +kernel
theorem reg3_masksK : masksIn (⟨emb7_nfa, [.none,.cb 2,.none,.none,.cb 2,.cb 2], true⟩ : EMach).nfa reg3_ms = true := by decide +kernel
theorem reg3_repOk : repOk reg3_ms reg3_cs = true := by decide +kernel
theorem reg3_crS : crOnly as_line_M.nfa = true := by decide +kernel
theorem reg3_crK : crOnly (⟨emb7_nfa, [.none,.cb 2,.none,.none,.cb 2,.cb 2], true⟩ : EMach).nfa = true := by decide +kernel
theorem reg3_ok : regOk as_line_M ⟨emb7_nfa, [.none,.cb 2,.none,.none,.cb 2,.cb 2], true⟩ 2 ⟨[], [(60, 47)]⟩ (reg3_cs.map (·.1)) reg3_tab = true := by decide +kernel

def mxml_reg1 : RegCert Actionscript.as_line.machine Emb.Mxml.parser.multi 1 2 ⟨[], [(60, 47)]⟩ := by
  rw [as_line_M_eq, mxml_M_eq]
  exact ⟨reg3_ms, reg3_cs, reg3_tab, by decide +kernel, rfl, reg3_masksS, reg3_masksK, by decide +kernel, reg3_repOk, by decide +kernel, reg3_crS, reg3_crK, reg3_ok⟩

/-- `Shell.shell_line` in machine 0 of `Emb.Nix.parser`. -/
def reg8_ms : List Nat := [4294967808,34359738368,549755813888,17179869184,8192,1024,4096,115792089237316195423570985008687907853269984665640564039457584007908834656767,115792089237316195423570985008687907853269984665640564039457584007913129626623,4951760157141521099596496896,115792089237316195423570985008687907853269984665635612279300442486259482348031,115792089237316195423570985008687907853269984665635612279300442486792058292735]
def reg8_cs : List (Nat × Nat) := [(0,115792089237316195423570985008687907853269984665635612279300442486207942738431),(9,4294967808),(10,1024),(11,2048),(12,4096),(13,8192),(34,17179869184),(35,34359738368),(39,549755813888),(92,4951760157141521099596496896)]
def reg8_tab : List RPair := [⟨[],[],none,256⟩,⟨[0],[1],some (.own 0),256⟩,⟨[37],[38],some .newline,256⟩,⟨[37,41],[38,42],some .newline,256⟩,⟨[1,42],[2,43],some (.own 3),256⟩,⟨[3,42],[4,43],some (.own 3),256⟩,⟨[2],[3],some (.own 3),256⟩,⟨[16],[17],some (.own 3),256⟩,⟨[15],[16],some (.own 3),256⟩,⟨[6],[7],some (.own 3),256⟩,⟨[7],[8],some (.own 3),256⟩,⟨[4],[5],some (.own 3),256⟩,⟨[4,8],[5,9],some (.own 3),256⟩,⟨[9,17],[10,18],some (.own 3),256⟩,⟨[16],[17],some .internalNl,256⟩,⟨[15],[16],some .internalNl,256⟩,⟨[6],[7],some .internalNl,256⟩,⟨[7],[8],some .internalNl,256⟩,⟨[4],[5],some .internalNl,256⟩,⟨[4,8],[5,9],some .internalNl,256⟩,⟨[9,17],[10,18],some .internalNl,256⟩,⟨[5],[6],some (.own 3),256⟩,⟨[5,6],[6,7],some .internalNl,256⟩,⟨[18],[19],some (.own 3),256⟩,⟨[12],[13],some (.own 3),256⟩,⟨[13],[14],some (.own 3),256⟩,⟨[10],[11],some (.own 3),256⟩,⟨[10,14],[11,15],some (.own 3),256⟩,⟨[5],[6],some .internalNl,256⟩,⟨[18],[19],some .internalNl,256⟩,⟨[12],[13],some .internalNl,256⟩,⟨[13],[14],some .internalNl,256⟩,⟨[10],[11],some .internalNl,256⟩,⟨[10,14],[11,15],some .internalNl,256⟩,⟨[11],[12],some (.own 3),256⟩,⟨[6,11],[7,12],some .internalNl,256⟩,⟨[11],[12],some .internalNl,256⟩]
theorem reg8_masksS : masksIn shell_line_M.nfa reg8_ms = true := by decide +kernel
theorem reg8_masksK : masksIn (⟨emb12_nfa, [.none,.cb 1,.none,.none,.cb 1,.cb 1], true⟩ : EMach).nfa reg8_ms = true := by decide +kernel
theorem reg8_repOk : repOk reg8_ms reg8_cs = true := by decide +kernel
theorem reg8_crS : crOnly shell_line_M.nfa = true := by decide +kernel
theorem reg8_crK : crOnly (⟨emb12_nfa, [.none,.cb 1,.none,.none,.cb 1,.cb 1], true⟩ : EMach).nfa = true := by decide +kernel
theorem reg8_ok : regOk shell_line_M ⟨emb12_nfa, [.none,.cb 1,.none,.none,.cb 1,.cb 1], true⟩ 1 ⟨[34], []⟩ (reg8_cs.map (·.1)) reg8_tab = true := by decide +kernel

def nix_reg0 : RegCert Shell.shell_line.machine Emb.Nix.parser.multi 0 1 ⟨[34], []⟩ := by
  rw [shell_line_M_eq, nix_M_eq]
  exact ⟨reg8_ms, reg8_cs, reg8_tab, by decide +kernel, rfl, reg8_masksS, reg8_masksK, by decide +kernel, reg8_repOk, by decide +kernel, reg8_crS, reg8_crK, reg8_ok⟩

/-- `Shell.shell_line` in machine 1 of `Emb.Nix.parser`. -/
def reg9_ms : List Nat := [4294967808,34359738368,549755813888,17179869184,8192,1024,4096,115792089237316195423570985008687907853269984665640564039457584007908834656767,115792089237316195423570985008687907853269984665640564039457584007913129626623,4951760157141521099596496896,115792089237316195423570985008687907853269984665635612279300442486259482348031,115792089237316195423570985008687907853269984665635612279300442486792058292735]
def reg9_cs : List (Nat × Nat) := [(0,115792089237316195423570985008687907853269984665635612279300442486207942738431),(9,4294967808),(10,1024),(11,2048),(12,4096),(13,8192),(34,17179869184),(35,34359738368),(39,549755813888),(92,4951760157141521099596496896)]
def reg9_tab : List RPair := [⟨[],[],none,256⟩,⟨[0],[2],some (.own 0),256⟩,⟨[37],[39],some .newline,256⟩,⟨[37,41],[39,43],some .newline,256⟩,⟨[20,42],[22,44],some (.own 3),256⟩,⟨[1,42],[3,44],some (.own 3),256⟩,⟨[3,42],[0,5,44],some (.own 3),39⟩,⟨[33],[35],some (.own 3),256⟩,⟨[32],[34],some (.own 3),256⟩,⟨[23],[25],some (.own 3),256⟩,⟨[24],[26],some (.own 3),256⟩,⟨[21],[23],some (.own 3),256⟩,⟨[21,25],[23,27],some (.own 3),256⟩,⟨[33],[35],some (.own 3),39⟩,⟨[26,34],[28,36],some (.own 3),256⟩,⟨[2],[4],some (.own 3),256⟩,⟨[2],[4],some (.own 3),39⟩,⟨[16],[18],some (.own 3),256⟩,⟨[15],[17],some (.own 3),256⟩,⟨[6],[8],some (.own 3),256⟩,⟨[7],[9],some (.own 3),256⟩,⟨[4],[6],some (.own 3),256⟩,⟨[4,8],[6,10],some (.own 3),256⟩,⟨[9,17],[11,19],some (.own 3),256⟩,⟨[33],[35],some .internalNl,256⟩,⟨[32],[34],some .internalNl,256⟩,⟨[23],[25],some .internalNl,256⟩,⟨[24],[26],some .internalNl,256⟩,⟨[21],[23],some .internalNl,256⟩,⟨[21,25],[23,27],some .internalNl,256⟩,⟨[33],[35],some .internalNl,39⟩,⟨[26,34],[28,36],some .internalNl,256⟩,⟨[22],[24],some (.own 3),256⟩,⟨[22,23],[24,25],some .internalNl,256⟩,⟨[35],[37],some (.own 3),256⟩,⟨[29],[31],some (.own 3),256⟩,⟨[30],[32],some (.own 3),256⟩,⟨[27],[29],some (.own 3),256⟩,⟨[27,31],[29,33],some (.own 3),256⟩,⟨[35],[37],some (.own 3),39⟩,⟨[16],[18],some .internalNl,256⟩,⟨[15],[17],some .internalNl,256⟩,⟨[6],[8],some .internalNl,256⟩,⟨[7],[9],some .internalNl,256⟩,⟨[4],[6],some .internalNl,256⟩,⟨[4,8],[6,10],some .internalNl,256⟩,⟨[9,17],[11,19],some .internalNl,256⟩,⟨[5],[7],some (.own 3),256⟩,⟨[5,6],[7,8],some .internalNl,256⟩,⟨[18],[20],some (.own 3),256⟩,⟨[12],[14],some (.own 3),256⟩,⟨[13],[15],some (.own 3),256⟩,⟨[10],[12],some (.own 3),256⟩,⟨[10,14],[12,16],some (.own 3),256⟩,⟨[18],[20],some (.own 3),39⟩,⟨[22],[24],some .internalNl,256⟩,⟨[35],[37],some .internalNl,256⟩,⟨[29],[31],some .internalNl,256⟩,⟨[30],[32],some .internalNl,256⟩,⟨[27],[29],some .internalNl,256⟩,⟨[27,31],[29,33],some .internalNl,256⟩,⟨[35],[37],some .internalNl,39⟩,⟨[28],[30],some (.own 3),256⟩,⟨[23,28],[25,30],some .internalNl,256⟩,⟨[5],[7],some .internalNl,256⟩,⟨[18],[20],some .internalNl,256⟩,⟨[12],[14],some .internalNl,256⟩,⟨[13],[15],some .internalNl,256⟩,⟨[10],[12],some .internalNl,256⟩,⟨[10,14],[12,16],some .internalNl,256⟩,⟨[18],[20],some .internalNl,39⟩,⟨[11],[13],some (.own 3),256⟩,⟨[6,11],[8,13],some .internalNl,256⟩,⟨[28],[30],some .internalNl,256⟩,⟨[11],[13],some .internalNl,256⟩]
theorem reg9_masksS : masksIn shell_line_M.nfa reg9_ms = true := by decide +kernel
theorem reg9_masksK : masksIn (⟨emb13_nfa, [.none,.cb 1,.none,.none,.cb 1,.cb 1], true⟩ : EMach).nfa reg9_ms = true := by decide +kernel
theorem reg9_repOk : repOk reg9_ms reg9_cs = true := by decide +kernel
theorem reg9_crS : crOnly shell_line_M.nfa = true := by decide +kernel
theorem reg9_crK : crOnly (⟨emb13_nfa, [.none,.cb 1,.none,.none,.cb 1,.cb 1], true⟩ : EMach).nfa = true := by decide +kernel
theorem reg9_ok : regOk shell_line_M ⟨emb13_nfa, [.none,.cb 1,.none,.none,.cb 1,.cb 1], true⟩ 1 ⟨[], [(39, 39)]⟩ (reg9_cs.map (·.1)) reg9_tab = true := by decide +kernel

def nix_reg1 : RegCert Shell.shell_line.machine Emb.Nix.parser.multi 1 1 ⟨[], [(39, 39)]⟩ := by
  rw [shell_line_M_eq, nix_M_eq]
  exact ⟨reg9_ms, reg9_cs, reg9_tab, by decide +kernel, rfl, reg9_masksS, reg9_masksK, by decide +kernel, reg9_repOk, by decide +kernel, reg9_crS, reg9_crK, reg9_ok⟩

end Ohcount.Cert
