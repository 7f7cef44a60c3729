import Verif.Cert.EN1
import Verif.Cert.EN2
import Verif.Cert.EN3
import Verif.Cert.EN4
import Verif.EmbedSafe

/-! Generated by tools/gen_embcerts.py. -/

namespace Ohcount.Cert
open Ohcount.Ragel Ohcount.Gram

set_option maxRecDepth 100000

theorem perl_m0 : Emb.Perl.perl_line.mach = ⟨emb54_nfa, [.cb 0,.none,.none,.cb 0,.none,.cb 0], true⟩ := by decide +kernel
theorem perl_m1 : Emb.Perl.perl_entity.mach = ⟨emb55_nfa, [.ecb 0,.ecb 0,.none], true⟩ := by decide +kernel

/-- The machines of `Emb.Perl.parser`, with their automata as literals. -/
def perl_M : Multi := ⟨Emb.Perl.parser.sws, [
  ⟨emb54_nfa, [.cb 0,.none,.none,.cb 0,.none,.cb 0], true⟩,
  ⟨emb55_nfa, [.ecb 0,.ecb 0,.none], true⟩]⟩
theorem perl_M_eq : Emb.Perl.parser.multi = perl_M := by
  show Multi.mk _ [Emb.Perl.perl_line.mach, Emb.Perl.perl_entity.mach] = _
  rw [perl_m0, perl_m1]; rfl

def perl_line : EOpt := ⟨true, false, false, [(0,false)], 1⟩
def perl_line_tab0false : List (List EA) := [[⟨0,0,false,none,none,none,false,false,0⟩],[⟨1,0,false,some (.own 0),some 0,none,false,true,0⟩,⟨2,0,false,some (.own 0),some 0,none,false,true,0⟩,⟨3,0,false,some (.own 0),some 0,none,false,true,0⟩],[⟨1,0,false,some .newline,none,none,false,false,0⟩],[⟨1,0,false,some .newline,some 3,none,false,false,0⟩],[⟨1,0,true,some (.own 3),some 5,none,true,true,0⟩],[⟨1,0,true,some (.own 3),some 1,none,false,true,0⟩],[⟨1,0,true,some (.own 3),some 5,none,true,true,0⟩],[⟨1,0,false,some (.own 3),some 5,none,false,true,0⟩],[⟨1,0,true,none,none,none,false,false,0⟩],[⟨1,0,true,none,some 4,none,false,false,0⟩],[⟨1,0,true,some (.own 3),some 5,none,true,true,0⟩],[⟨2,0,true,some (.own 3),some 5,none,true,true,0⟩,⟨3,0,true,some (.own 3),some 5,none,true,true,0⟩,⟨3,0,true,some .internalNl,some 5,none,true,true,0⟩],[⟨2,0,true,some (.own 3),some 5,none,true,true,0⟩,⟨3,0,true,some (.own 3),some 5,none,true,true,0⟩,⟨3,0,true,some .internalNl,some 5,none,false,true,0⟩,⟨3,0,true,some .internalNl,some 5,none,true,true,0⟩],[⟨2,0,true,some (.own 3),some 5,none,true,true,0⟩,⟨3,0,true,some (.own 3),some 5,none,true,true,0⟩,⟨3,0,true,some .internalNl,some 5,none,false,true,0⟩,⟨3,0,true,some .internalNl,some 5,none,true,true,0⟩],[⟨2,0,true,some (.own 3),some 5,none,true,true,0⟩,⟨3,0,true,some (.own 3),some 5,none,true,true,0⟩,⟨3,0,true,some .internalNl,some 5,none,false,true,0⟩,⟨3,0,true,some .internalNl,some 5,none,true,true,0⟩],[⟨2,0,true,some (.own 3),some 5,none,true,true,0⟩,⟨3,0,true,some (.own 3),some 5,none,true,true,0⟩,⟨3,0,true,some .internalNl,some 5,none,false,true,0⟩,⟨3,0,true,some .internalNl,some 5,none,true,true,0⟩],[⟨2,0,true,some (.own 3),some 5,none,true,true,0⟩,⟨3,0,true,some (.own 3),some 5,none,true,true,0⟩,⟨3,0,true,some .internalNl,some 5,none,false,true,0⟩,⟨3,0,true,some .internalNl,some 5,none,true,true,0⟩],[⟨2,0,true,some (.own 3),some 5,none,true,true,0⟩,⟨3,0,true,some (.own 3),some 5,none,true,true,0⟩,⟨3,0,true,some .internalNl,some 5,none,false,true,0⟩,⟨3,0,true,some .internalNl,some 5,none,true,true,0⟩],[⟨2,0,true,some (.own 3),some 1,none,false,true,0⟩,⟨3,0,true,some (.own 3),some 1,none,false,true,0⟩],[⟨2,0,true,some (.own 3),some 5,none,true,true,0⟩,⟨3,0,true,some (.own 3),some 5,none,true,true,0⟩,⟨3,0,true,some .internalNl,some 5,none,true,true,0⟩],[⟨2,0,true,some (.own 3),some 5,none,true,true,0⟩,⟨3,0,true,some (.own 3),some 5,none,true,true,0⟩,⟨3,0,true,some .internalNl,some 5,none,false,true,0⟩,⟨3,0,true,some .internalNl,some 5,none,true,true,0⟩],[⟨2,0,true,some (.own 3),some 5,none,true,true,0⟩,⟨3,0,true,some (.own 3),some 5,none,true,true,0⟩,⟨3,0,true,some .internalNl,some 5,none,false,true,0⟩,⟨3,0,true,some .internalNl,some 5,none,true,true,0⟩],[⟨2,0,true,some (.own 3),some 5,none,true,true,0⟩,⟨3,0,true,some (.own 3),some 5,none,true,true,0⟩,⟨3,0,true,some .internalNl,some 5,none,false,true,0⟩,⟨3,0,true,some .internalNl,some 5,none,true,true,0⟩],[⟨2,0,true,some (.own 3),some 5,none,true,true,0⟩,⟨3,0,true,some (.own 3),some 5,none,true,true,0⟩,⟨3,0,true,some .internalNl,some 5,none,false,true,0⟩,⟨3,0,true,some .internalNl,some 5,none,true,true,0⟩],[⟨2,0,true,some (.own 3),some 5,none,true,true,0⟩,⟨3,0,true,some (.own 3),some 5,none,true,true,0⟩,⟨3,0,true,some .internalNl,some 5,none,false,true,0⟩,⟨3,0,true,some .internalNl,some 5,none,true,true,0⟩],[⟨2,0,true,some (.own 3),some 5,none,true,true,0⟩,⟨3,0,true,some (.own 3),some 5,none,true,true,0⟩,⟨3,0,true,some .internalNl,some 5,none,false,true,0⟩,⟨3,0,true,some .internalNl,some 5,none,true,true,0⟩],[⟨2,0,false,some (.own 3),some 5,none,false,true,0⟩,⟨3,0,false,some (.own 3),some 5,none,false,true,0⟩],[⟨2,0,false,some (.own 3),some 5,none,false,true,0⟩,⟨3,0,false,some (.own 3),some 5,none,false,true,0⟩],[⟨2,0,true,none,some 1,none,false,false,0⟩,⟨3,0,true,none,some 1,none,false,false,0⟩],[⟨2,0,true,some (.own 3),some 5,none,true,true,0⟩,⟨3,0,true,some (.own 3),some 5,none,true,true,0⟩,⟨3,0,true,some .internalNl,some 5,none,true,true,0⟩],[⟨2,0,true,some (.own 3),some 5,none,true,true,0⟩,⟨3,0,true,some (.own 3),some 5,none,true,true,0⟩,⟨3,0,true,some .internalNl,some 5,none,false,true,0⟩,⟨3,0,true,some .internalNl,some 5,none,true,true,0⟩],[⟨2,0,true,some (.own 3),some 5,none,true,true,0⟩,⟨3,0,true,some (.own 3),some 5,none,true,true,0⟩,⟨3,0,true,some .internalNl,some 5,none,false,true,0⟩,⟨3,0,true,some .internalNl,some 5,none,true,true,0⟩],[⟨2,0,true,some (.own 3),some 5,none,true,true,0⟩,⟨3,0,true,some (.own 3),some 5,none,true,true,0⟩,⟨3,0,true,some .internalNl,some 5,none,false,true,0⟩,⟨3,0,true,some .internalNl,some 5,none,true,true,0⟩],[⟨2,0,true,some (.own 3),some 5,none,true,true,0⟩,⟨3,0,true,some (.own 3),some 5,none,true,true,0⟩,⟨3,0,true,some .internalNl,some 5,none,false,true,0⟩,⟨3,0,true,some .internalNl,some 5,none,true,true,0⟩],[⟨2,0,true,some (.own 3),some 5,none,true,true,0⟩,⟨3,0,true,some (.own 3),some 5,none,true,true,0⟩,⟨3,0,true,some .internalNl,some 5,none,false,true,0⟩,⟨3,0,true,some .internalNl,some 5,none,true,true,0⟩],[⟨2,0,true,some (.own 3),some 5,none,true,true,0⟩,⟨3,0,true,some (.own 3),some 5,none,true,true,0⟩,⟨3,0,true,some .internalNl,some 5,none,false,true,0⟩,⟨3,0,true,some .internalNl,some 5,none,true,true,0⟩],[⟨3,0,true,some (.own 3),some 5,none,true,true,0⟩,⟨3,0,true,some .internalNl,some 5,none,false,true,0⟩,⟨3,0,true,some .internalNl,some 5,none,true,true,0⟩],[⟨3,0,true,some .internalNl,some 5,none,false,true,0⟩],[⟨3,0,true,some (.own 3),some 5,none,true,true,0⟩,⟨3,0,true,some .internalNl,some 5,none,true,true,0⟩],[⟨3,0,true,some (.own 3),some 5,none,true,true,0⟩,⟨3,0,true,some .internalNl,some 5,none,false,true,0⟩,⟨3,0,true,some .internalNl,some 5,none,true,true,0⟩],[⟨3,0,true,some .internalNl,some 5,none,false,true,0⟩],[⟨3,0,true,some (.own 3),some 5,none,true,true,0⟩,⟨3,0,true,some .internalNl,some 5,none,true,true,0⟩],[⟨3,0,false,some (.own 3),some 5,none,false,true,0⟩],[⟨3,0,true,none,some 1,none,false,false,0⟩],[⟨3,0,true,none,some 1,none,false,false,0⟩],[⟨3,0,true,none,some 1,none,false,false,0⟩,⟨3,0,true,some .internalNl,some 1,none,false,true,0⟩],[⟨3,0,true,none,some 1,none,false,false,0⟩,⟨3,0,true,some .internalNl,some 1,none,false,true,0⟩],[⟨3,0,true,none,some 1,none,false,false,0⟩,⟨3,0,true,some .internalNl,some 1,none,false,true,0⟩],[⟨3,0,true,none,some 1,none,false,false,0⟩,⟨3,0,true,some .internalNl,some 1,none,false,true,0⟩],[⟨3,0,true,none,some 1,none,false,false,0⟩],[⟨3,0,true,some (.own 3),some 5,none,true,true,0⟩,⟨3,0,true,some .internalNl,some 5,none,false,true,0⟩,⟨3,0,true,some .internalNl,some 5,none,true,true,0⟩],[⟨3,0,true,some .internalNl,some 5,none,false,true,0⟩],[⟨3,0,true,some (.own 3),some 5,none,true,true,0⟩,⟨3,0,true,some .internalNl,some 5,none,true,true,0⟩],[⟨3,0,true,some .internalNl,some 1,none,false,true,0⟩],[⟨3,0,true,some .internalNl,some 1,none,false,true,0⟩],[⟨3,0,true,some .internalNl,some 1,none,false,true,0⟩],[⟨3,0,true,none,some 1,none,false,false,0⟩,⟨3,0,true,some .internalNl,some 1,none,false,true,0⟩],[⟨3,0,true,some .internalNl,some 1,none,false,true,0⟩],[⟨3,0,true,none,some 1,none,false,false,0⟩],[⟨3,0,true,some .internalNl,some 1,none,false,true,0⟩],[⟨3,0,true,none,some 1,none,false,false,0⟩],[⟨3,0,true,some .internalNl,some 1,none,false,true,0⟩],[],[]]
theorem perl_line_closed0false : closed emb54_rows perl_line_tab0false (EA.start perl_M perl_line 0) (EA.succ perl_M perl_line (0, false)) (EA.eofOk perl_M perl_line (0, false)) = true := by
  decide +kernel
def perl_line_C0false : MCert perl_M perl_line (0, false) := ⟨emb54_D, perl_line_tab0false, perl_line_closed0false, (fun h => nomatch h)⟩
theorem perl_line_certs : ∀ u ∈ perl_line.use, Nonempty (MCert perl_M perl_line u) :=
  (List.forall_mem_cons.mpr ⟨⟨perl_line_C0false⟩,
  (fun _ h => nomatch h)⟩)

def perl_entity : EOpt := ⟨true, false, false, [(1,false)], 1⟩
def perl_entity_tab1false : List (List EA) := [[⟨0,0,false,none,none,none,false,false,0⟩],[⟨1,0,false,some (.own 0),some 0,none,false,true,0⟩,⟨2,0,false,some (.own 0),some 0,none,false,true,0⟩,⟨3,0,false,some (.own 0),some 0,none,false,true,0⟩],[⟨1,0,false,some (.own 1),some 1,none,false,true,0⟩],[⟨1,0,false,some (.own 1),some 2,none,false,true,0⟩],[⟨2,0,false,some (.own 1),some 1,none,false,true,0⟩,⟨3,0,false,some (.own 1),some 1,none,false,true,0⟩],[⟨2,0,false,some (.own 1),some 2,none,false,true,0⟩],[⟨3,0,false,some (.own 1),some 2,none,false,true,0⟩],[⟨3,0,false,some (.own 1),some 2,none,false,true,0⟩],[⟨3,0,false,some (.own 1),some 2,none,false,true,0⟩],[⟨3,0,false,some (.own 1),some 2,none,false,true,0⟩],[⟨3,0,false,some (.own 1),some 2,none,false,true,0⟩]]
theorem perl_entity_closed1false : closed emb55_rows perl_entity_tab1false (EA.start perl_M perl_entity 1) (EA.succ perl_M perl_entity (1, false)) (EA.eofOk perl_M perl_entity (1, false)) = true := by
  decide +kernel
def perl_entity_C1false : MCert perl_M perl_entity (1, false) := ⟨emb55_D, perl_entity_tab1false, perl_entity_closed1false, (fun h => nomatch h)⟩
theorem perl_entity_certs : ∀ u ∈ perl_entity.use, Nonempty (MCert perl_M perl_entity u) :=
  (List.forall_mem_cons.mpr ⟨⟨perl_entity_C1false⟩,
  (fun _ h => nomatch h)⟩)

theorem rhtml_m0 : Emb.Rhtml.rhtml_comment.mach = ⟨emb25_nfa, [.none], false⟩ := by decide +kernel
theorem rhtml_m1 : Emb.Rhtml.rhtml_sq_str.mach = ⟨emb26_nfa, [.none], false⟩ := by decide +kernel
theorem rhtml_m2 : Emb.Rhtml.rhtml_dq_str.mach = ⟨emb27_nfa, [.none], false⟩ := by decide +kernel
theorem rhtml_m3 : Emb.Rhtml.rhtml_css_line.mach = ⟨emb0_nfa, [.none,.cb 1,.none,.none,.cb 1,.cb 1], true⟩ := by decide +kernel
theorem rhtml_m4 : Emb.Rhtml.rhtml_js_line.mach = ⟨emb1_nfa, [.none,.cb 2,.none,.none,.cb 2,.cb 2], true⟩ := by decide +kernel
theorem rhtml_m5 : Emb.Rhtml.rhtml_ruby_line.mach = ⟨emb50_nfa, [.none,.cb 3,.none,.none,.cb 3,.cb 3], true⟩ := by decide +kernel
theorem rhtml_m6 : Emb.Rhtml.rhtml_line.mach = ⟨emb29_nfa, [.call 3,.call 4,.call 5,.cb 0,.goto 0,.goto 1,.goto 2,.cb 0,.cb 0], true⟩ := by decide +kernel
theorem rhtml_m7 : Emb.Rhtml.rhtml_css_entity.mach = ⟨emb3_nfa, [.none,.ecb 1,.ecb 1,.none], true⟩ := by decide +kernel
theorem rhtml_m8 : Emb.Rhtml.rhtml_js_entity.mach = ⟨emb4_nfa, [.none,.ecb 2,.ecb 2,.none], true⟩ := by decide +kernel
theorem rhtml_m9 : Emb.Rhtml.rhtml_ruby_entity.mach = ⟨emb51_nfa, [.none,.ecb 3,.ecb 3,.none], true⟩ := by decide +kernel
theorem rhtml_m10 : Emb.Rhtml.rhtml_entity.mach = ⟨emb31_nfa, [.call 7,.call 8,.call 9,.ecb 0,.ecb 0,.none], true⟩ := by decide +kernel

/-- The machines of `Emb.Rhtml.parser`, with their automata as literals. -/
def rhtml_M : Multi := ⟨Emb.Rhtml.parser.sws, [
  ⟨emb25_nfa, [.none], false⟩,
  ⟨emb26_nfa, [.none], false⟩,
  ⟨emb27_nfa, [.none], false⟩,
  ⟨emb0_nfa, [.none,.cb 1,.none,.none,.cb 1,.cb 1], true⟩,
  ⟨emb1_nfa, [.none,.cb 2,.none,.none,.cb 2,.cb 2], true⟩,
  ⟨emb50_nfa, [.none,.cb 3,.none,.none,.cb 3,.cb 3], true⟩,
  ⟨emb29_nfa, [.call 3,.call 4,.call 5,.cb 0,.goto 0,.goto 1,.goto 2,.cb 0,.cb 0], true⟩,
  ⟨emb3_nfa, [.none,.ecb 1,.ecb 1,.none], true⟩,
  ⟨emb4_nfa, [.none,.ecb 2,.ecb 2,.none], true⟩,
  ⟨emb51_nfa, [.none,.ecb 3,.ecb 3,.none], true⟩,
  ⟨emb31_nfa, [.call 7,.call 8,.call 9,.ecb 0,.ecb 0,.none], true⟩]⟩
theorem rhtml_M_eq : Emb.Rhtml.parser.multi = rhtml_M := by
  show Multi.mk _ [Emb.Rhtml.rhtml_comment.mach, Emb.Rhtml.rhtml_sq_str.mach, Emb.Rhtml.rhtml_dq_str.mach, Emb.Rhtml.rhtml_css_line.mach, Emb.Rhtml.rhtml_js_line.mach, Emb.Rhtml.rhtml_ruby_line.mach, Emb.Rhtml.rhtml_line.mach, Emb.Rhtml.rhtml_css_entity.mach, Emb.Rhtml.rhtml_js_entity.mach, Emb.Rhtml.rhtml_ruby_entity.mach, Emb.Rhtml.rhtml_entity.mach] = _
  rw [rhtml_m0, rhtml_m1, rhtml_m2, rhtml_m3, rhtml_m4, rhtml_m5, rhtml_m6, rhtml_m7, rhtml_m8, rhtml_m9, rhtml_m10]; rfl

def rhtml_line : EOpt := ⟨false, false, false, [(6,false),(3,true),(4,true),(5,true),(0,false),(1,false),(2,false)], 4⟩
def rhtml_line_tab6false : List (List EA) := [[⟨0,0,false,none,none,none,false,false,0⟩],[⟨1,0,false,some (.own 0),some 3,none,false,true,0⟩,⟨2,0,false,some (.own 0),some 3,none,false,true,0⟩,⟨3,0,false,some (.own 0),some 3,none,false,true,0⟩],[⟨1,0,false,some .newline,none,none,false,false,0⟩],[⟨1,0,false,some .newline,some 7,none,false,false,0⟩],[⟨1,0,false,some (.own 5),some 8,none,false,true,0⟩],[⟨2,0,false,some (.own 5),some 8,none,false,true,0⟩],[⟨2,0,false,some (.own 5),some 8,none,false,true,0⟩],[⟨3,0,false,some (.own 5),some 8,none,false,true,0⟩],[⟨3,0,false,some (.own 5),some 8,none,false,true,0⟩],[⟨3,0,false,some (.own 5),some 8,none,false,true,0⟩],[⟨3,0,false,some (.own 5),some 8,none,false,true,0⟩],[⟨3,0,false,some (.own 5),some 8,none,false,true,0⟩],[⟨3,0,false,some (.own 5),some 8,none,false,true,0⟩],[⟨3,0,false,some (.own 5),some 8,none,false,true,0⟩],[⟨3,0,false,some (.own 5),some 8,none,false,true,0⟩],[⟨3,0,false,some (.own 5),some 8,none,false,true,0⟩],[⟨3,0,false,some (.own 5),some 8,none,false,true,0⟩],[⟨3,0,false,some (.own 5),some 8,none,false,true,0⟩],[⟨3,0,false,some (.own 5),some 8,none,false,true,0⟩],[⟨3,0,false,some (.own 5),some 8,none,false,true,0⟩],[⟨3,0,false,some (.own 5),some 8,none,false,true,0⟩],[⟨3,0,false,some (.own 5),some 8,none,false,true,0⟩],[⟨3,0,false,some (.own 5),some 8,none,false,true,0⟩],[⟨3,0,false,some (.own 5),some 8,none,false,true,0⟩],[⟨3,0,false,some (.own 5),some 8,none,false,true,0⟩],[⟨3,0,false,some (.own 5),some 8,none,false,true,0⟩],[⟨3,0,false,some (.own 5),some 8,none,false,true,0⟩],[⟨3,0,false,some (.own 5),some 8,none,false,true,0⟩],[⟨3,0,false,some (.own 5),some 8,none,false,true,0⟩],[⟨3,0,false,some (.own 5),some 8,none,false,true,0⟩],[⟨3,0,false,some (.own 5),some 8,none,false,true,0⟩],[⟨3,0,false,some (.own 5),some 8,none,false,true,0⟩],[⟨3,0,false,some (.own 5),some 8,none,false,true,0⟩],[⟨3,0,false,some (.own 5),some 8,none,false,true,0⟩],[⟨3,0,false,some (.own 5),some 8,none,false,true,0⟩],[⟨3,0,false,some (.own 5),some 8,none,false,true,0⟩],[⟨3,0,false,some (.own 5),some 8,none,false,true,0⟩],[⟨3,0,false,some (.own 5),some 8,none,false,true,0⟩],[⟨3,0,false,some (.own 5),some 8,none,false,true,0⟩],[⟨3,0,false,some (.own 5),some 8,none,false,true,0⟩],[⟨3,0,false,some (.own 5),some 8,none,false,true,0⟩],[⟨3,0,false,some (.own 5),some 8,none,false,true,0⟩],[⟨3,0,false,some (.own 5),some 8,none,false,true,0⟩],[⟨3,0,false,some (.own 5),some 8,none,false,true,0⟩]]
theorem rhtml_line_closed6false : closed emb29_rows rhtml_line_tab6false (EA.start rhtml_M rhtml_line 6) (EA.succ rhtml_M rhtml_line (6, false)) (EA.eofOk rhtml_M rhtml_line (6, false)) = true := by
  decide +kernel
def rhtml_line_C6false : MCert rhtml_M rhtml_line (6, false) := ⟨emb29_D, rhtml_line_tab6false, rhtml_line_closed6false, (fun h => nomatch h)⟩
def rhtml_line_tab3true : List (List EA) := [[⟨0,0,false,none,none,none,false,false,0⟩],[⟨1,0,false,some (.own 0),some 1,none,false,true,0⟩,⟨2,0,false,some (.own 0),some 1,none,false,true,0⟩,⟨3,0,false,some (.own 0),some 1,none,false,true,0⟩],[⟨1,0,false,some .newline,none,none,false,false,0⟩],[⟨1,0,false,some .newline,some 4,none,false,false,0⟩],[⟨1,0,true,some (.own 9),some 5,none,true,true,0⟩],[⟨1,0,true,some (.own 9),some 5,none,true,true,0⟩],[⟨1,0,false,some (.own 9),some 5,none,false,true,0⟩],[⟨1,0,false,some (.own 9),some 5,none,false,true,0⟩],[⟨2,0,true,some (.own 9),some 5,none,true,true,0⟩,⟨3,0,true,some (.own 9),some 5,none,true,true,0⟩,⟨3,0,true,some .internalNl,some 5,none,true,true,0⟩],[⟨2,0,true,some (.own 9),some 5,none,true,true,0⟩,⟨3,0,true,some (.own 9),some 5,none,true,true,0⟩,⟨3,0,true,some .internalNl,some 5,none,false,true,0⟩,⟨3,0,true,some .internalNl,some 5,none,true,true,0⟩],[⟨2,0,true,some (.own 9),some 5,none,true,true,0⟩,⟨3,0,true,some (.own 9),some 5,none,true,true,0⟩,⟨3,0,true,some .internalNl,some 5,none,false,true,0⟩,⟨3,0,true,some .internalNl,some 5,none,true,true,0⟩],[⟨2,0,true,some (.own 9),some 5,none,true,true,0⟩,⟨3,0,true,some (.own 9),some 5,none,true,true,0⟩,⟨3,0,true,some .internalNl,some 5,none,false,true,0⟩,⟨3,0,true,some .internalNl,some 5,none,true,true,0⟩],[⟨2,0,true,some (.own 9),some 5,none,true,true,0⟩,⟨3,0,true,some (.own 9),some 5,none,true,true,0⟩,⟨3,0,true,some .internalNl,some 5,none,false,true,0⟩,⟨3,0,true,some .internalNl,some 5,none,true,true,0⟩],[⟨2,0,true,some (.own 9),some 5,none,true,true,0⟩,⟨3,0,true,some (.own 9),some 5,none,true,true,0⟩,⟨3,0,true,some .internalNl,some 5,none,false,true,0⟩,⟨3,0,true,some .internalNl,some 5,none,true,true,0⟩],[⟨2,0,true,some (.own 9),some 5,none,true,true,0⟩,⟨3,0,true,some (.own 9),some 5,none,true,true,0⟩,⟨3,0,true,some .internalNl,some 5,none,false,true,0⟩,⟨3,0,true,some .internalNl,some 5,none,true,true,0⟩],[⟨2,0,true,some (.own 9),some 5,none,true,true,0⟩,⟨3,0,true,some (.own 9),some 5,none,true,true,0⟩,⟨3,0,true,some .internalNl,some 5,none,true,true,0⟩],[⟨2,0,true,some (.own 9),some 5,none,true,true,0⟩,⟨3,0,true,some (.own 9),some 5,none,true,true,0⟩,⟨3,0,true,some .internalNl,some 5,none,false,true,0⟩,⟨3,0,true,some .internalNl,some 5,none,true,true,0⟩],[⟨2,0,true,some (.own 9),some 5,none,true,true,0⟩,⟨3,0,true,some (.own 9),some 5,none,true,true,0⟩,⟨3,0,true,some .internalNl,some 5,none,false,true,0⟩,⟨3,0,true,some .internalNl,some 5,none,true,true,0⟩],[⟨2,0,true,some (.own 9),some 5,none,true,true,0⟩,⟨3,0,true,some (.own 9),some 5,none,true,true,0⟩,⟨3,0,true,some .internalNl,some 5,none,false,true,0⟩,⟨3,0,true,some .internalNl,some 5,none,true,true,0⟩],[⟨2,0,true,some (.own 9),some 5,none,true,true,0⟩,⟨3,0,true,some (.own 9),some 5,none,true,true,0⟩,⟨3,0,true,some .internalNl,some 5,none,false,true,0⟩,⟨3,0,true,some .internalNl,some 5,none,true,true,0⟩],[⟨2,0,true,some (.own 9),some 5,none,true,true,0⟩,⟨3,0,true,some (.own 9),some 5,none,true,true,0⟩,⟨3,0,true,some .internalNl,some 5,none,false,true,0⟩,⟨3,0,true,some .internalNl,some 5,none,true,true,0⟩],[⟨2,0,true,some (.own 9),some 5,none,true,true,0⟩,⟨3,0,true,some (.own 9),some 5,none,true,true,0⟩,⟨3,0,true,some .internalNl,some 5,none,false,true,0⟩,⟨3,0,true,some .internalNl,some 5,none,true,true,0⟩],[⟨2,0,true,some (.own 9),some 5,none,false,true,0⟩],[⟨2,0,false,some (.own 9),some 5,none,false,true,0⟩],[⟨3,0,true,some (.own 9),some 5,none,true,true,0⟩,⟨3,0,true,some .internalNl,some 5,none,false,true,0⟩,⟨3,0,true,some .internalNl,some 5,none,true,true,0⟩],[⟨3,0,true,some .internalNl,some 5,none,false,true,0⟩],[⟨3,0,true,some (.own 9),some 5,none,true,true,0⟩,⟨3,0,true,some .internalNl,some 5,none,true,true,0⟩],[⟨3,0,true,some (.own 9),some 5,none,true,true,0⟩,⟨3,0,true,some .internalNl,some 5,none,false,true,0⟩,⟨3,0,true,some .internalNl,some 5,none,true,true,0⟩],[⟨3,0,true,some .internalNl,some 5,none,false,true,0⟩],[⟨3,0,true,some (.own 9),some 5,none,true,true,0⟩,⟨3,0,true,some .internalNl,some 5,none,true,true,0⟩],[⟨3,0,true,some (.own 9),some 5,none,false,true,0⟩,⟨3,0,true,some .internalNl,some 5,none,false,true,0⟩],[⟨3,0,true,some (.own 9),some 5,none,false,true,0⟩,⟨3,0,true,some .internalNl,some 5,none,false,true,0⟩],[⟨3,0,true,some (.own 9),some 5,none,false,true,0⟩,⟨3,0,true,some .internalNl,some 5,none,false,true,0⟩],[⟨3,0,true,some (.own 9),some 5,none,false,true,0⟩,⟨3,0,true,some .internalNl,some 5,none,false,true,0⟩],[⟨3,0,true,some (.own 9),some 5,none,false,true,0⟩,⟨3,0,true,some .internalNl,some 5,none,false,true,0⟩],[⟨3,0,true,some (.own 9),some 5,none,false,true,0⟩,⟨3,0,true,some .internalNl,some 5,none,false,true,0⟩],[⟨3,0,true,some (.own 9),some 5,none,false,true,0⟩,⟨3,0,true,some .internalNl,some 5,none,false,true,0⟩],[⟨3,0,false,some (.own 9),some 5,none,false,true,0⟩],[⟨3,0,true,some (.own 9),some 5,none,false,true,0⟩,⟨3,0,true,some .internalNl,some 5,none,false,true,0⟩],[⟨3,0,true,some .internalNl,some 5,none,false,true,0⟩],[⟨3,0,false,some (.own 9),some 5,none,false,true,0⟩],[⟨3,0,false,some (.own 9),some 5,none,false,true,0⟩],[⟨3,0,false,some (.own 9),some 5,none,false,true,0⟩],[⟨3,0,false,some (.own 9),some 5,none,false,true,0⟩],[⟨3,0,false,some (.own 9),some 5,none,false,true,0⟩,⟨3,0,true,some .internalNl,some 5,none,false,true,0⟩],[⟨3,0,false,some .internalNl,some 5,none,false,true,0⟩,⟨3,0,true,some .internalNl,some 5,none,false,true,0⟩],[⟨3,0,false,some .internalNl,some 5,none,false,true,0⟩,⟨3,0,true,some .internalNl,some 5,none,false,true,0⟩],[⟨3,0,false,some (.own 9),some 5,none,false,true,0⟩,⟨3,0,true,some .internalNl,some 5,none,false,true,0⟩],[⟨3,0,false,some .internalNl,some 5,none,false,true,0⟩,⟨3,0,true,some .internalNl,some 5,none,false,true,0⟩],[⟨3,0,false,some .internalNl,some 5,none,false,true,0⟩,⟨3,0,true,some .internalNl,some 5,none,false,true,0⟩],[⟨3,0,true,some .internalNl,some 5,none,false,true,0⟩]]
theorem rhtml_line_closed3true : closed emb0_rows rhtml_line_tab3true (EA.start rhtml_M rhtml_line 3) (EA.succ rhtml_M rhtml_line (3, true)) (EA.eofOk rhtml_M rhtml_line (3, true)) = true := by
  decide +kernel
def rhtml_line_C3true : MCert rhtml_M rhtml_line (3, true) := ⟨emb0_D, rhtml_line_tab3true, rhtml_line_closed3true, (fun h => nomatch h)⟩
def rhtml_line_tab4true : List (List EA) := [[⟨0,0,false,none,none,none,false,false,0⟩],[⟨1,0,false,some (.own 0),some 1,none,false,true,0⟩,⟨2,0,false,some (.own 0),some 1,none,false,true,0⟩,⟨3,0,false,some (.own 0),some 1,none,false,true,0⟩],[⟨1,0,false,some .newline,none,none,false,false,0⟩],[⟨1,0,false,some .newline,some 4,none,false,false,0⟩],[⟨1,0,true,some (.own 7),some 5,none,true,true,0⟩],[⟨1,0,true,some (.own 7),some 5,none,true,true,0⟩],[⟨1,0,false,some (.own 7),some 5,none,false,true,0⟩],[⟨1,0,false,some (.own 7),some 5,none,false,true,0⟩],[⟨2,0,true,some (.own 7),some 5,none,true,true,0⟩,⟨3,0,true,some (.own 7),some 5,none,true,true,0⟩,⟨3,0,true,some .internalNl,some 5,none,true,true,0⟩],[⟨2,0,true,some (.own 7),some 5,none,true,true,0⟩,⟨3,0,true,some (.own 7),some 5,none,true,true,0⟩,⟨3,0,true,some .internalNl,some 5,none,false,true,0⟩,⟨3,0,true,some .internalNl,some 5,none,true,true,0⟩],[⟨2,0,true,some (.own 7),some 5,none,true,true,0⟩,⟨3,0,true,some (.own 7),some 5,none,true,true,0⟩,⟨3,0,true,some .internalNl,some 5,none,false,true,0⟩,⟨3,0,true,some .internalNl,some 5,none,true,true,0⟩],[⟨2,0,true,some (.own 7),some 5,none,true,true,0⟩,⟨3,0,true,some (.own 7),some 5,none,true,true,0⟩,⟨3,0,true,some .internalNl,some 5,none,true,true,0⟩],[⟨2,0,true,some (.own 7),some 5,none,true,true,0⟩,⟨3,0,true,some (.own 7),some 5,none,true,true,0⟩,⟨3,0,true,some .internalNl,some 5,none,false,true,0⟩,⟨3,0,true,some .internalNl,some 5,none,true,true,0⟩],[⟨2,0,true,some (.own 7),some 5,none,true,true,0⟩,⟨3,0,true,some (.own 7),some 5,none,true,true,0⟩,⟨3,0,true,some .internalNl,some 5,none,false,true,0⟩,⟨3,0,true,some .internalNl,some 5,none,true,true,0⟩],[⟨2,0,false,some (.own 7),some 5,none,false,true,0⟩],[⟨2,0,true,some (.own 7),some 5,none,false,true,0⟩],[⟨2,0,true,some (.own 7),some 2,none,false,true,0⟩],[⟨2,0,false,some (.own 7),some 5,none,false,true,0⟩],[⟨3,0,true,some (.own 7),some 5,none,true,true,0⟩,⟨3,0,true,some .internalNl,some 5,none,true,true,0⟩],[⟨3,0,true,some (.own 7),some 5,none,true,true,0⟩,⟨3,0,true,some .internalNl,some 5,none,false,true,0⟩,⟨3,0,true,some .internalNl,some 5,none,true,true,0⟩],[⟨3,0,true,some (.own 7),some 5,none,true,true,0⟩,⟨3,0,true,some .internalNl,some 5,none,false,true,0⟩,⟨3,0,true,some .internalNl,some 5,none,true,true,0⟩],[⟨3,0,true,some (.own 7),some 5,none,true,true,0⟩,⟨3,0,true,some .internalNl,some 5,none,false,true,0⟩,⟨3,0,true,some .internalNl,some 5,none,true,true,0⟩],[⟨3,0,true,some (.own 7),some 5,none,true,true,0⟩,⟨3,0,true,some .internalNl,some 5,none,false,true,0⟩,⟨3,0,true,some .internalNl,some 5,none,true,true,0⟩],[⟨3,0,true,some (.own 7),some 5,none,true,true,0⟩,⟨3,0,true,some .internalNl,some 5,none,true,true,0⟩],[⟨3,0,true,some (.own 7),some 5,none,true,true,0⟩,⟨3,0,true,some .internalNl,some 5,none,false,true,0⟩,⟨3,0,true,some .internalNl,some 5,none,true,true,0⟩],[⟨3,0,true,some (.own 7),some 5,none,true,true,0⟩,⟨3,0,true,some .internalNl,some 5,none,false,true,0⟩,⟨3,0,true,some .internalNl,some 5,none,true,true,0⟩],[⟨3,0,true,some (.own 7),some 5,none,true,true,0⟩,⟨3,0,true,some .internalNl,some 5,none,false,true,0⟩,⟨3,0,true,some .internalNl,some 5,none,true,true,0⟩],[⟨3,0,true,some (.own 7),some 5,none,true,true,0⟩,⟨3,0,true,some .internalNl,some 5,none,false,true,0⟩,⟨3,0,true,some .internalNl,some 5,none,true,true,0⟩],[⟨3,0,false,some (.own 7),some 5,none,false,true,0⟩],[⟨3,0,false,some (.own 7),some 5,none,false,true,0⟩],[⟨3,0,true,some (.own 7),some 5,none,false,true,0⟩,⟨3,0,true,some .internalNl,some 5,none,false,true,0⟩],[⟨3,0,true,some (.own 7),some 5,none,false,true,0⟩,⟨3,0,true,some .internalNl,some 5,none,false,true,0⟩],[⟨3,0,true,some (.own 7),some 5,none,false,true,0⟩,⟨3,0,true,some .internalNl,some 5,none,false,true,0⟩],[⟨3,0,true,some (.own 7),some 5,none,false,true,0⟩,⟨3,0,true,some .internalNl,some 5,none,false,true,0⟩],[⟨3,0,true,some (.own 7),some 5,none,false,true,0⟩,⟨3,0,true,some .internalNl,some 5,none,false,true,0⟩],[⟨3,0,true,some (.own 7),some 5,none,false,true,0⟩,⟨3,0,true,some .internalNl,some 5,none,false,true,0⟩],[⟨3,0,true,some (.own 7),some 5,none,false,true,0⟩,⟨3,0,true,some .internalNl,some 5,none,false,true,0⟩],[⟨3,0,true,some (.own 7),some 2,none,false,true,0⟩],[⟨3,0,false,some (.own 7),some 5,none,false,true,0⟩],[⟨3,0,true,some (.own 7),some 5,none,true,true,0⟩,⟨3,0,true,some .internalNl,some 5,none,false,true,0⟩,⟨3,0,true,some .internalNl,some 5,none,true,true,0⟩],[⟨3,0,true,some .internalNl,some 5,none,true,true,0⟩],[⟨3,0,true,some (.own 7),some 5,none,true,true,0⟩,⟨3,0,true,some .internalNl,some 5,none,false,true,0⟩,⟨3,0,true,some .internalNl,some 5,none,true,true,0⟩],[⟨3,0,true,some .internalNl,some 5,none,true,true,0⟩],[⟨3,0,false,some (.own 7),some 5,none,false,true,0⟩],[⟨3,0,true,some (.own 7),some 5,none,false,true,0⟩,⟨3,0,true,some .internalNl,some 5,none,false,true,0⟩],[⟨3,0,true,some .internalNl,some 5,none,false,true,0⟩],[⟨3,0,false,some (.own 7),some 5,none,false,true,0⟩],[⟨3,0,false,some (.own 7),some 5,none,false,true,0⟩],[⟨3,0,false,some (.own 7),some 5,none,false,true,0⟩],[⟨3,0,false,some (.own 7),some 5,none,false,true,0⟩],[⟨3,0,false,some (.own 7),some 5,none,false,true,0⟩],[⟨3,0,false,some (.own 7),some 5,none,false,true,0⟩,⟨3,0,true,some .internalNl,some 5,none,false,true,0⟩],[⟨3,0,false,some .internalNl,some 5,none,false,true,0⟩,⟨3,0,true,some .internalNl,some 5,none,false,true,0⟩],[⟨3,0,false,some .internalNl,some 5,none,false,true,0⟩,⟨3,0,true,some .internalNl,some 5,none,false,true,0⟩],[⟨3,0,false,some (.own 7),some 5,none,false,true,0⟩,⟨3,0,true,some .internalNl,some 5,none,false,true,0⟩],[⟨3,0,false,some .internalNl,some 5,none,false,true,0⟩,⟨3,0,true,some .internalNl,some 5,none,false,true,0⟩],[⟨3,0,false,some .internalNl,some 5,none,false,true,0⟩,⟨3,0,true,some .internalNl,some 5,none,false,true,0⟩],[⟨3,0,true,some .internalNl,some 5,none,false,true,0⟩]]
theorem rhtml_line_closed4true : closed emb1_rows rhtml_line_tab4true (EA.start rhtml_M rhtml_line 4) (EA.succ rhtml_M rhtml_line (4, true)) (EA.eofOk rhtml_M rhtml_line (4, true)) = true := by
  decide +kernel
def rhtml_line_C4true : MCert rhtml_M rhtml_line (4, true) := ⟨emb1_D, rhtml_line_tab4true, rhtml_line_closed4true, (fun h => nomatch h)⟩
def rhtml_line_tab5true : List (List EA) := [[⟨0,0,false,none,none,none,false,false,0⟩],[⟨1,0,false,some (.own 0),some 1,none,false,true,0⟩,⟨2,0,false,some (.own 0),some 1,none,false,true,0⟩,⟨3,0,false,some (.own 0),some 1,none,false,true,0⟩],[⟨1,0,false,some .newline,none,none,false,false,0⟩],[⟨1,0,false,some .newline,some 4,none,false,false,0⟩],[⟨1,0,true,some (.own 3),some 5,none,true,true,0⟩],[⟨1,0,true,some (.own 3),some 2,none,false,true,0⟩],[⟨1,0,false,some (.own 3),some 5,none,false,true,0⟩],[⟨1,0,true,some (.own 3),some 5,none,true,true,0⟩],[⟨1,0,false,some (.own 3),some 5,none,false,true,0⟩],[⟨1,0,false,some (.own 3),some 5,none,false,true,0⟩],[⟨1,0,true,some (.own 3),some 5,none,true,true,0⟩],[⟨2,0,true,some (.own 3),some 5,none,true,true,0⟩,⟨3,0,true,some (.own 3),some 5,none,true,true,0⟩,⟨3,0,true,some .internalNl,some 5,none,true,true,0⟩],[⟨2,0,true,some (.own 3),some 5,none,true,true,0⟩,⟨3,0,true,some (.own 3),some 5,none,true,true,0⟩,⟨3,0,true,some .internalNl,some 5,none,false,true,0⟩,⟨3,0,true,some .internalNl,some 5,none,true,true,0⟩],[⟨2,0,true,some (.own 3),some 5,none,true,true,0⟩,⟨3,0,true,some (.own 3),some 5,none,true,true,0⟩,⟨3,0,true,some .internalNl,some 5,none,false,true,0⟩,⟨3,0,true,some .internalNl,some 5,none,true,true,0⟩],[⟨2,0,true,some (.own 3),some 5,none,true,true,0⟩,⟨3,0,true,some (.own 3),some 5,none,true,true,0⟩,⟨3,0,true,some .internalNl,some 5,none,false,true,0⟩,⟨3,0,true,some .internalNl,some 5,none,true,true,0⟩],[⟨2,0,true,some (.own 3),some 5,none,true,true,0⟩,⟨3,0,true,some (.own 3),some 5,none,true,true,0⟩,⟨3,0,true,some .internalNl,some 5,none,false,true,0⟩,⟨3,0,true,some .internalNl,some 5,none,true,true,0⟩],[⟨2,0,true,some (.own 3),some 5,none,true,true,0⟩,⟨3,0,true,some (.own 3),some 5,none,true,true,0⟩,⟨3,0,true,some .internalNl,some 5,none,false,true,0⟩,⟨3,0,true,some .internalNl,some 5,none,true,true,0⟩],[⟨2,0,true,some (.own 3),some 5,none,true,true,0⟩,⟨3,0,true,some (.own 3),some 5,none,true,true,0⟩,⟨3,0,true,some .internalNl,some 5,none,false,true,0⟩,⟨3,0,true,some .internalNl,some 5,none,true,true,0⟩],[⟨2,0,true,some (.own 3),some 2,none,false,true,0⟩,⟨3,0,true,some (.own 3),some 2,none,false,true,0⟩],[⟨2,0,true,some (.own 3),some 5,none,true,true,0⟩,⟨3,0,true,some (.own 3),some 5,none,true,true,0⟩],[⟨2,0,false,some (.own 3),some 5,none,false,true,0⟩],[⟨2,0,false,some (.own 3),some 5,none,false,true,0⟩],[⟨2,0,true,some (.own 3),some 5,none,true,true,0⟩,⟨3,0,true,some (.own 3),some 5,none,true,true,0⟩,⟨3,0,true,some .internalNl,some 5,none,true,true,0⟩],[⟨2,0,true,some (.own 3),some 5,none,true,true,0⟩,⟨3,0,true,some (.own 3),some 5,none,true,true,0⟩,⟨3,0,true,some .internalNl,some 5,none,false,true,0⟩,⟨3,0,true,some .internalNl,some 5,none,true,true,0⟩],[⟨2,0,true,some (.own 3),some 5,none,true,true,0⟩,⟨3,0,true,some (.own 3),some 5,none,true,true,0⟩,⟨3,0,true,some .internalNl,some 5,none,false,true,0⟩,⟨3,0,true,some .internalNl,some 5,none,true,true,0⟩],[⟨2,0,true,some (.own 3),some 5,none,true,true,0⟩,⟨3,0,true,some (.own 3),some 5,none,true,true,0⟩,⟨3,0,true,some .internalNl,some 5,none,false,true,0⟩,⟨3,0,true,some .internalNl,some 5,none,true,true,0⟩],[⟨2,0,true,some (.own 3),some 5,none,true,true,0⟩,⟨3,0,true,some (.own 3),some 5,none,true,true,0⟩,⟨3,0,true,some .internalNl,some 5,none,false,true,0⟩,⟨3,0,true,some .internalNl,some 5,none,true,true,0⟩],[⟨2,0,true,some (.own 3),some 5,none,true,true,0⟩,⟨3,0,true,some (.own 3),some 5,none,true,true,0⟩,⟨3,0,true,some .internalNl,some 5,none,false,true,0⟩,⟨3,0,true,some .internalNl,some 5,none,true,true,0⟩],[⟨2,0,true,some (.own 3),some 5,none,true,true,0⟩,⟨3,0,true,some (.own 3),some 5,none,true,true,0⟩,⟨3,0,true,some .internalNl,some 5,none,false,true,0⟩,⟨3,0,true,some .internalNl,some 5,none,true,true,0⟩],[⟨2,0,false,some (.own 3),some 5,none,false,true,0⟩,⟨3,0,false,some (.own 3),some 5,none,false,true,0⟩],[⟨2,0,false,some (.own 3),some 5,none,false,true,0⟩,⟨3,0,false,some (.own 3),some 5,none,false,true,0⟩],[⟨2,0,false,some (.own 3),some 5,none,false,true,0⟩],[⟨2,0,true,some (.own 3),some 5,none,true,true,0⟩,⟨3,0,true,some (.own 3),some 5,none,true,true,0⟩,⟨3,0,true,some .internalNl,some 5,none,true,true,0⟩],[⟨2,0,true,some (.own 3),some 5,none,true,true,0⟩,⟨3,0,true,some (.own 3),some 5,none,true,true,0⟩,⟨3,0,true,some .internalNl,some 5,none,false,true,0⟩,⟨3,0,true,some .internalNl,some 5,none,true,true,0⟩],[⟨2,0,true,some (.own 3),some 5,none,true,true,0⟩,⟨3,0,true,some (.own 3),some 5,none,true,true,0⟩,⟨3,0,true,some .internalNl,some 5,none,false,true,0⟩,⟨3,0,true,some .internalNl,some 5,none,true,true,0⟩],[⟨2,0,true,some (.own 3),some 5,none,true,true,0⟩,⟨3,0,true,some (.own 3),some 5,none,true,true,0⟩,⟨3,0,true,some .internalNl,some 5,none,false,true,0⟩,⟨3,0,true,some .internalNl,some 5,none,true,true,0⟩],[⟨2,0,true,some (.own 3),some 5,none,true,true,0⟩,⟨3,0,true,some (.own 3),some 5,none,true,true,0⟩,⟨3,0,true,some .internalNl,some 5,none,false,true,0⟩,⟨3,0,true,some .internalNl,some 5,none,true,true,0⟩],[⟨2,0,true,some (.own 3),some 5,none,true,true,0⟩,⟨3,0,true,some (.own 3),some 5,none,true,true,0⟩,⟨3,0,true,some .internalNl,some 5,none,false,true,0⟩,⟨3,0,true,some .internalNl,some 5,none,true,true,0⟩],[⟨2,0,true,some (.own 3),some 5,none,true,true,0⟩,⟨3,0,true,some (.own 3),some 5,none,true,true,0⟩,⟨3,0,true,some .internalNl,some 5,none,false,true,0⟩,⟨3,0,true,some .internalNl,some 5,none,true,true,0⟩],[⟨3,0,true,some (.own 3),some 5,none,true,true,0⟩,⟨3,0,true,some .internalNl,some 5,none,false,true,0⟩,⟨3,0,true,some .internalNl,some 5,none,true,true,0⟩],[⟨3,0,true,some .internalNl,some 5,none,false,true,0⟩],[⟨3,0,true,some (.own 3),some 5,none,true,true,0⟩,⟨3,0,true,some .internalNl,some 5,none,true,true,0⟩],[⟨3,0,true,some (.own 3),some 5,none,true,true,0⟩,⟨3,0,true,some .internalNl,some 5,none,true,true,0⟩],[⟨3,0,true,some (.own 3),some 5,none,true,true,0⟩,⟨3,0,true,some .internalNl,some 5,none,false,true,0⟩,⟨3,0,true,some .internalNl,some 5,none,true,true,0⟩],[⟨3,0,true,some (.own 3),some 5,none,true,true,0⟩,⟨3,0,true,some .internalNl,some 5,none,false,true,0⟩,⟨3,0,true,some .internalNl,some 5,none,true,true,0⟩],[⟨3,0,true,some (.own 3),some 5,none,true,true,0⟩,⟨3,0,true,some .internalNl,some 5,none,false,true,0⟩,⟨3,0,true,some .internalNl,some 5,none,true,true,0⟩],[⟨3,0,true,some (.own 3),some 5,none,true,true,0⟩,⟨3,0,true,some .internalNl,some 5,none,false,true,0⟩,⟨3,0,true,some .internalNl,some 5,none,true,true,0⟩],[⟨3,0,true,some (.own 3),some 5,none,true,true,0⟩,⟨3,0,true,some .internalNl,some 5,none,false,true,0⟩,⟨3,0,true,some .internalNl,some 5,none,true,true,0⟩],[⟨3,0,true,some (.own 3),some 5,none,true,true,0⟩,⟨3,0,true,some .internalNl,some 5,none,false,true,0⟩,⟨3,0,true,some .internalNl,some 5,none,true,true,0⟩],[⟨3,0,true,some (.own 3),some 5,none,true,true,0⟩],[⟨3,0,true,some (.own 3),some 5,none,true,true,0⟩,⟨3,0,true,some .internalNl,some 5,none,false,true,0⟩,⟨3,0,true,some .internalNl,some 5,none,true,true,0⟩],[⟨3,0,true,some .internalNl,some 5,none,false,true,0⟩],[⟨3,0,true,some (.own 3),some 5,none,true,true,0⟩,⟨3,0,true,some .internalNl,some 5,none,true,true,0⟩],[⟨3,0,false,some (.own 3),some 5,none,false,true,0⟩],[⟨3,0,false,some (.own 3),some 5,none,false,true,0⟩],[⟨3,0,true,some (.own 3),some 5,none,true,true,0⟩,⟨3,0,true,some .internalNl,some 5,none,false,true,0⟩,⟨3,0,true,some .internalNl,some 5,none,true,true,0⟩],[⟨3,0,true,some .internalNl,some 5,none,false,true,0⟩],[⟨3,0,true,some (.own 3),some 5,none,true,true,0⟩,⟨3,0,true,some .internalNl,some 5,none,true,true,0⟩],[⟨3,0,true,some (.own 3),some 5,none,true,true,0⟩,⟨3,0,true,some .internalNl,some 5,none,false,true,0⟩,⟨3,0,true,some .internalNl,some 5,none,true,true,0⟩],[⟨3,0,true,some .internalNl,some 5,none,false,true,0⟩],[⟨3,0,true,some (.own 3),some 5,none,true,true,0⟩,⟨3,0,true,some .internalNl,some 5,none,true,true,0⟩],[⟨3,0,true,some (.own 3),some 5,none,true,true,0⟩,⟨3,0,true,some .internalNl,some 5,none,true,true,0⟩],[⟨3,0,true,some (.own 3),some 5,none,true,true,0⟩,⟨3,0,true,some .internalNl,some 5,none,false,true,0⟩,⟨3,0,true,some .internalNl,some 5,none,true,true,0⟩],[⟨3,0,true,some (.own 3),some 5,none,true,true,0⟩,⟨3,0,true,some .internalNl,some 5,none,false,true,0⟩,⟨3,0,true,some .internalNl,some 5,none,true,true,0⟩],[⟨3,0,true,some (.own 3),some 5,none,true,true,0⟩,⟨3,0,true,some .internalNl,some 5,none,false,true,0⟩,⟨3,0,true,some .internalNl,some 5,none,true,true,0⟩],[⟨3,0,true,some (.own 3),some 5,none,true,true,0⟩,⟨3,0,true,some .internalNl,some 5,none,false,true,0⟩,⟨3,0,true,some .internalNl,some 5,none,true,true,0⟩],[⟨3,0,true,some (.own 3),some 5,none,true,true,0⟩,⟨3,0,true,some .internalNl,some 5,none,false,true,0⟩,⟨3,0,true,some .internalNl,some 5,none,true,true,0⟩],[⟨3,0,true,some (.own 3),some 5,none,true,true,0⟩,⟨3,0,true,some .internalNl,some 5,none,false,true,0⟩,⟨3,0,true,some .internalNl,some 5,none,true,true,0⟩],[⟨3,0,false,some (.own 3),some 5,none,false,true,0⟩],[⟨3,0,true,some (.own 3),some 5,none,true,true,0⟩,⟨3,0,true,some .internalNl,some 5,none,false,true,0⟩,⟨3,0,true,some .internalNl,some 5,none,true,true,0⟩],[⟨3,0,true,some .internalNl,some 5,none,false,true,0⟩],[⟨3,0,true,some (.own 3),some 5,none,true,true,0⟩,⟨3,0,true,some .internalNl,some 5,none,true,true,0⟩],[⟨3,0,false,some (.own 3),some 5,none,false,true,0⟩],[⟨3,0,true,some (.own 3),some 5,none,false,true,0⟩],[⟨3,0,true,some (.own 3),some 5,none,false,true,0⟩,⟨3,0,true,some .internalNl,some 5,none,false,true,0⟩],[⟨3,0,true,some (.own 3),some 5,none,false,true,0⟩,⟨3,0,true,some .internalNl,some 5,none,false,true,0⟩],[⟨3,0,true,some (.own 3),some 5,none,false,true,0⟩,⟨3,0,true,some .internalNl,some 5,none,false,true,0⟩],[⟨3,0,true,some (.own 3),some 5,none,false,true,0⟩,⟨3,0,true,some .internalNl,some 5,none,false,true,0⟩],[⟨3,0,true,some (.own 3),some 5,none,false,true,0⟩,⟨3,0,true,some .internalNl,some 5,none,false,true,0⟩],[⟨3,0,true,some (.own 3),some 5,none,false,true,0⟩,⟨3,0,true,some .internalNl,some 5,none,false,true,0⟩],[⟨3,0,true,some (.own 3),some 5,none,false,true,0⟩,⟨3,0,true,some .internalNl,some 5,none,false,true,0⟩],[⟨3,0,true,some (.own 3),some 5,none,false,true,0⟩,⟨3,0,true,some .internalNl,some 5,none,false,true,0⟩],[⟨3,0,true,some .internalNl,some 5,none,false,true,0⟩],[⟨3,0,true,some (.own 3),some 5,none,false,true,0⟩,⟨3,0,true,some .internalNl,some 5,none,false,true,0⟩],[⟨3,0,true,some (.own 3),some 5,none,false,true,0⟩,⟨3,0,true,some .internalNl,some 5,none,false,true,0⟩]]
theorem rhtml_line_closed5true : closed emb50_rows rhtml_line_tab5true (EA.start rhtml_M rhtml_line 5) (EA.succ rhtml_M rhtml_line (5, true)) (EA.eofOk rhtml_M rhtml_line (5, true)) = true := by
  decide +kernel
def rhtml_line_C5true : MCert rhtml_M rhtml_line (5, true) := ⟨emb50_D, rhtml_line_tab5true, rhtml_line_closed5true, (fun h => nomatch h)⟩
def rhtml_line_tab0false : List (List EA) := [[⟨0,0,true,none,none,none,false,false,0⟩],[⟨0,0,true,none,none,none,false,false,0⟩,⟨0,0,true,some .internalNl,none,none,false,true,0⟩],[⟨0,0,true,none,none,none,false,false,0⟩,⟨0,0,true,some .internalNl,none,none,false,true,0⟩],[⟨0,0,true,none,none,none,false,false,0⟩,⟨0,0,true,some .internalNl,none,none,false,true,0⟩],[⟨0,0,true,none,none,none,false,false,0⟩,⟨0,0,true,some .internalNl,none,none,false,true,0⟩],[⟨0,0,true,none,none,none,false,false,0⟩,⟨0,0,true,some .internalNl,none,none,false,true,0⟩],[⟨0,0,true,none,none,none,false,false,0⟩,⟨0,0,true,some .internalNl,none,none,false,true,0⟩],[⟨0,0,true,none,none,none,false,false,0⟩,⟨0,0,true,some .internalNl,none,none,false,true,0⟩],[⟨0,0,true,none,none,none,false,false,0⟩,⟨0,0,true,some .internalNl,none,none,false,true,0⟩],[⟨0,0,true,none,none,none,false,false,0⟩,⟨0,0,true,some .internalNl,none,none,false,true,0⟩],[⟨0,0,true,some .internalNl,none,none,false,true,0⟩],[⟨0,0,true,none,none,none,false,false,0⟩,⟨0,0,true,some .internalNl,none,none,false,true,0⟩],[⟨0,0,true,none,none,none,false,false,0⟩,⟨0,0,true,some .internalNl,none,none,false,true,0⟩],[⟨0,0,true,none,none,none,false,false,0⟩,⟨0,0,true,some .internalNl,none,none,false,true,0⟩],[⟨0,0,true,none,none,none,false,false,0⟩,⟨0,0,true,some .internalNl,none,none,false,true,0⟩],[⟨0,0,true,none,none,none,false,false,0⟩,⟨0,0,true,some .internalNl,none,none,false,true,0⟩],[⟨0,0,true,none,none,none,false,false,0⟩,⟨0,0,true,some .internalNl,none,none,false,true,0⟩],[⟨0,0,true,none,none,none,false,false,0⟩,⟨0,0,true,some .internalNl,none,none,false,true,0⟩],[⟨0,0,true,none,none,none,false,false,0⟩,⟨0,0,true,some .internalNl,none,none,false,true,0⟩],[⟨0,0,false,none,none,none,false,false,0⟩],[⟨0,0,true,none,none,none,false,false,0⟩,⟨0,0,true,some .internalNl,none,none,false,true,0⟩],[⟨0,0,true,none,none,none,false,false,0⟩,⟨0,0,true,some .internalNl,none,none,false,true,0⟩],[⟨0,0,true,none,none,none,false,false,0⟩,⟨0,0,true,some .internalNl,none,none,false,true,0⟩],[⟨0,0,true,none,none,none,false,false,0⟩,⟨0,0,true,some .internalNl,none,none,false,true,0⟩,⟨0,0,false,none,none,none,false,false,0⟩],[⟨0,0,true,none,none,none,false,false,0⟩,⟨0,0,true,some .internalNl,none,none,false,true,0⟩,⟨0,0,false,none,none,none,false,false,0⟩],[⟨0,0,true,none,none,none,false,false,0⟩,⟨0,0,true,some .internalNl,none,none,false,true,0⟩,⟨0,0,false,none,none,none,false,false,0⟩],[⟨0,0,true,none,none,none,false,false,0⟩,⟨0,0,true,some .internalNl,none,none,false,true,0⟩,⟨0,0,false,none,none,none,false,false,0⟩],[⟨0,0,true,none,none,none,false,false,0⟩,⟨0,0,true,some .internalNl,none,none,false,true,0⟩,⟨0,0,false,none,none,none,false,false,0⟩],[⟨0,0,true,none,none,none,false,false,0⟩,⟨0,0,true,some .internalNl,none,none,false,true,0⟩,⟨0,0,false,none,none,none,false,false,0⟩],[⟨0,0,true,none,none,none,false,false,0⟩,⟨0,0,true,some .internalNl,none,none,false,true,0⟩,⟨0,0,false,none,none,none,false,false,0⟩],[⟨0,0,true,none,none,none,false,false,0⟩,⟨0,0,true,some .internalNl,none,none,false,true,0⟩,⟨0,0,false,none,none,none,false,false,0⟩],[⟨0,0,true,none,none,none,false,false,0⟩,⟨0,0,true,some .internalNl,none,none,false,true,0⟩,⟨0,0,false,none,none,none,false,false,0⟩],[⟨0,0,true,none,none,none,false,false,0⟩],[⟨0,0,false,none,none,none,false,false,0⟩],[⟨0,0,false,none,none,none,false,false,0⟩],[⟨0,0,false,none,none,none,false,false,0⟩],[⟨0,0,false,none,none,none,false,false,0⟩],[⟨0,0,false,none,none,none,false,false,0⟩],[⟨0,0,false,none,none,none,false,false,0⟩],[⟨0,0,false,none,none,none,false,false,0⟩],[⟨0,0,false,none,none,none,false,false,0⟩],[⟨0,0,true,none,none,none,false,false,0⟩,⟨0,0,true,some .internalNl,none,none,false,true,0⟩,⟨0,0,false,none,none,none,false,false,0⟩],[⟨0,0,true,none,none,none,false,false,0⟩,⟨0,0,true,some .internalNl,none,none,false,true,0⟩],[⟨0,0,true,none,none,none,false,false,0⟩,⟨0,0,true,some .internalNl,none,none,false,true,0⟩,⟨0,0,false,none,none,none,false,false,0⟩],[⟨0,0,true,none,none,none,false,false,0⟩,⟨0,0,true,some .internalNl,none,none,false,true,0⟩,⟨0,0,false,none,none,none,false,false,0⟩],[⟨0,0,true,none,none,none,false,false,0⟩,⟨0,0,true,some .internalNl,none,none,false,true,0⟩,⟨0,0,false,none,none,none,false,false,0⟩],[⟨0,0,true,none,none,none,false,false,0⟩,⟨0,0,true,some .internalNl,none,none,false,true,0⟩,⟨0,0,false,none,none,none,false,false,0⟩],[⟨0,0,true,none,none,none,false,false,0⟩,⟨0,0,true,some .internalNl,none,none,false,true,0⟩,⟨0,0,false,none,none,none,false,false,0⟩],[⟨0,0,true,none,none,none,false,false,0⟩,⟨0,0,true,some .internalNl,none,none,false,true,0⟩,⟨0,0,false,none,none,none,false,false,0⟩],[⟨0,0,false,none,none,none,false,false,0⟩],[⟨0,0,true,none,none,none,false,false,0⟩,⟨0,0,true,some .internalNl,none,none,false,true,0⟩,⟨0,0,false,none,none,none,false,false,0⟩],[⟨0,0,true,none,none,none,false,false,0⟩,⟨0,0,true,some .internalNl,none,none,false,true,0⟩,⟨0,0,false,none,none,none,false,false,0⟩],[⟨0,0,true,none,none,none,false,false,0⟩],[⟨0,0,false,none,none,none,false,false,0⟩],[⟨0,0,false,none,none,none,false,false,0⟩],[⟨0,0,false,none,none,none,false,false,0⟩],[⟨0,0,false,none,none,none,false,false,0⟩],[⟨0,0,false,none,none,none,false,false,0⟩],[⟨0,0,false,none,none,none,false,false,0⟩],[⟨0,0,false,none,none,none,false,false,0⟩],[⟨0,0,false,none,none,none,false,false,0⟩]]
theorem rhtml_line_closed0false : closed emb25_rows rhtml_line_tab0false (EA.start rhtml_M rhtml_line 0) (EA.succ rhtml_M rhtml_line (0, false)) (EA.eofOk rhtml_M rhtml_line (0, false)) = true := by
  decide +kernel
def rhtml_line_C0false : MCert rhtml_M rhtml_line (0, false) := ⟨emb25_D, rhtml_line_tab0false, rhtml_line_closed0false, (fun h => nomatch h)⟩
def rhtml_line_tab1false : List (List EA) := [[⟨0,0,true,none,none,none,false,false,0⟩],[⟨0,0,true,none,none,none,true,false,0⟩,⟨0,0,true,some .internalNl,none,none,true,true,0⟩],[⟨0,0,true,none,none,none,false,false,0⟩,⟨0,0,true,none,none,none,true,false,0⟩,⟨0,0,true,some .internalNl,none,none,false,true,0⟩,⟨0,0,true,some .internalNl,none,none,true,true,0⟩],[⟨0,0,true,none,none,none,false,false,0⟩,⟨0,0,true,none,none,none,true,false,0⟩,⟨0,0,true,some .internalNl,none,none,false,true,0⟩,⟨0,0,true,some .internalNl,none,none,true,true,0⟩],[⟨0,0,true,none,none,none,false,false,0⟩,⟨0,0,true,none,none,none,true,false,0⟩,⟨0,0,true,some .internalNl,none,none,false,true,0⟩,⟨0,0,true,some .internalNl,none,none,true,true,0⟩],[⟨0,0,true,none,none,none,false,false,0⟩,⟨0,0,true,none,none,none,true,false,0⟩,⟨0,0,true,some .internalNl,none,none,false,true,0⟩,⟨0,0,true,some .internalNl,none,none,true,true,0⟩],[⟨0,0,true,none,none,none,false,false,0⟩,⟨0,0,true,none,none,none,true,false,0⟩,⟨0,0,true,some .internalNl,none,none,false,true,0⟩,⟨0,0,true,some .internalNl,none,none,true,true,0⟩],[⟨0,0,true,none,none,none,false,false,0⟩,⟨0,0,true,none,none,none,true,false,0⟩,⟨0,0,true,some .internalNl,none,none,false,true,0⟩,⟨0,0,true,some .internalNl,none,none,true,true,0⟩],[⟨0,0,true,none,none,none,false,false,0⟩,⟨0,0,true,none,none,none,true,false,0⟩,⟨0,0,true,some .internalNl,none,none,false,true,0⟩,⟨0,0,true,some .internalNl,none,none,true,true,0⟩],[⟨0,0,true,none,none,none,false,false,0⟩,⟨0,0,true,none,none,none,true,false,0⟩,⟨0,0,true,some .internalNl,none,none,false,true,0⟩,⟨0,0,true,some .internalNl,none,none,true,true,0⟩],[⟨0,0,true,some .internalNl,none,none,false,true,0⟩],[⟨0,0,true,none,none,none,true,false,0⟩,⟨0,0,true,some .internalNl,none,none,true,true,0⟩],[⟨0,0,true,none,none,none,false,false,0⟩,⟨0,0,true,none,none,none,true,false,0⟩,⟨0,0,true,some .internalNl,none,none,false,true,0⟩,⟨0,0,true,some .internalNl,none,none,true,true,0⟩],[⟨0,0,true,none,none,none,false,false,0⟩,⟨0,0,true,none,none,none,true,false,0⟩,⟨0,0,true,some .internalNl,none,none,false,true,0⟩,⟨0,0,true,some .internalNl,none,none,true,true,0⟩],[⟨0,0,true,none,none,none,false,false,0⟩,⟨0,0,true,none,none,none,true,false,0⟩,⟨0,0,true,some .internalNl,none,none,false,true,0⟩,⟨0,0,true,some .internalNl,none,none,true,true,0⟩],[⟨0,0,true,none,none,none,false,false,0⟩,⟨0,0,true,none,none,none,true,false,0⟩,⟨0,0,true,some .internalNl,none,none,false,true,0⟩,⟨0,0,true,some .internalNl,none,none,true,true,0⟩],[⟨0,0,true,none,none,none,false,false,0⟩,⟨0,0,true,none,none,none,true,false,0⟩,⟨0,0,true,some .internalNl,none,none,false,true,0⟩,⟨0,0,true,some .internalNl,none,none,true,true,0⟩],[⟨0,0,false,none,none,none,false,false,0⟩],[],[⟨0,0,true,none,none,none,false,false,0⟩,⟨0,0,true,none,none,none,true,false,0⟩,⟨0,0,true,some .internalNl,none,none,false,true,0⟩,⟨0,0,true,some .internalNl,none,none,true,true,0⟩],[⟨0,0,true,none,none,none,false,false,0⟩,⟨0,0,true,none,none,none,true,false,0⟩,⟨0,0,true,some .internalNl,none,none,false,true,0⟩,⟨0,0,true,some .internalNl,none,none,true,true,0⟩],[⟨0,0,true,none,none,none,true,false,0⟩,⟨0,0,true,some .internalNl,none,none,true,true,0⟩],[⟨0,0,true,none,none,none,true,false,0⟩,⟨0,0,true,some .internalNl,none,none,true,true,0⟩],[⟨0,0,true,none,none,none,true,false,0⟩,⟨0,0,true,none,none,none,false,false,0⟩,⟨0,0,true,some .internalNl,none,none,false,true,0⟩,⟨0,0,true,some .internalNl,none,none,true,true,0⟩,⟨0,0,false,none,none,none,false,false,0⟩],[⟨0,0,true,none,none,none,true,false,0⟩,⟨0,0,true,none,none,none,false,false,0⟩,⟨0,0,true,some .internalNl,none,none,false,true,0⟩,⟨0,0,true,some .internalNl,none,none,true,true,0⟩,⟨0,0,false,none,none,none,false,false,0⟩],[⟨0,0,true,none,none,none,true,false,0⟩,⟨0,0,true,none,none,none,false,false,0⟩,⟨0,0,true,some .internalNl,none,none,false,true,0⟩,⟨0,0,true,some .internalNl,none,none,true,true,0⟩,⟨0,0,false,none,none,none,false,false,0⟩],[⟨0,0,true,none,none,none,true,false,0⟩,⟨0,0,true,none,none,none,false,false,0⟩,⟨0,0,true,some .internalNl,none,none,false,true,0⟩,⟨0,0,true,some .internalNl,none,none,true,true,0⟩,⟨0,0,false,none,none,none,false,false,0⟩],[⟨0,0,true,none,none,none,true,false,0⟩,⟨0,0,true,none,none,none,false,false,0⟩,⟨0,0,true,some .internalNl,none,none,false,true,0⟩,⟨0,0,true,some .internalNl,none,none,true,true,0⟩,⟨0,0,false,none,none,none,false,false,0⟩],[],[⟨0,0,true,none,none,none,true,false,0⟩,⟨0,0,true,none,none,none,false,false,0⟩,⟨0,0,true,some .internalNl,none,none,false,true,0⟩,⟨0,0,true,some .internalNl,none,none,true,true,0⟩,⟨0,0,false,none,none,none,false,false,0⟩],[⟨0,0,true,none,none,none,true,false,0⟩,⟨0,0,true,none,none,none,false,false,0⟩,⟨0,0,true,some .internalNl,none,none,false,true,0⟩,⟨0,0,true,some .internalNl,none,none,true,true,0⟩,⟨0,0,false,none,none,none,false,false,0⟩],[⟨0,0,true,none,none,none,false,false,0⟩,⟨0,0,true,some .internalNl,none,none,false,true,0⟩,⟨0,0,true,none,none,none,true,false,0⟩,⟨0,0,false,none,none,none,false,false,0⟩,⟨0,0,true,some .internalNl,none,none,true,true,0⟩],[⟨0,0,true,none,none,none,true,false,0⟩],[⟨0,0,false,none,none,none,false,false,0⟩],[⟨0,0,false,none,none,none,false,false,0⟩],[⟨0,0,false,none,none,none,false,false,0⟩],[⟨0,0,false,none,none,none,false,false,0⟩],[⟨0,0,false,none,none,none,false,false,0⟩],[],[⟨0,0,false,none,none,none,false,false,0⟩],[⟨0,0,false,none,none,none,false,false,0⟩],[⟨0,0,true,none,none,none,true,false,0⟩,⟨0,0,true,some .internalNl,none,none,true,true,0⟩],[⟨0,0,true,none,none,none,false,false,0⟩,⟨0,0,true,none,none,none,true,false,0⟩,⟨0,0,true,some .internalNl,none,none,false,true,0⟩,⟨0,0,false,none,none,none,false,false,0⟩,⟨0,0,true,some .internalNl,none,none,true,true,0⟩],[⟨0,0,true,none,none,none,false,false,0⟩,⟨0,0,true,none,none,none,true,false,0⟩,⟨0,0,true,some .internalNl,none,none,false,true,0⟩,⟨0,0,false,none,none,none,false,false,0⟩,⟨0,0,true,some .internalNl,none,none,true,true,0⟩],[⟨0,0,true,none,none,none,false,false,0⟩,⟨0,0,true,none,none,none,true,false,0⟩,⟨0,0,true,some .internalNl,none,none,false,true,0⟩,⟨0,0,false,none,none,none,false,false,0⟩,⟨0,0,true,some .internalNl,none,none,true,true,0⟩],[⟨0,0,true,none,none,none,false,false,0⟩,⟨0,0,true,none,none,none,true,false,0⟩,⟨0,0,true,some .internalNl,none,none,false,true,0⟩,⟨0,0,false,none,none,none,false,false,0⟩,⟨0,0,true,some .internalNl,none,none,true,true,0⟩],[⟨0,0,true,none,none,none,false,false,0⟩,⟨0,0,true,none,none,none,true,false,0⟩,⟨0,0,true,some .internalNl,none,none,false,true,0⟩,⟨0,0,false,none,none,none,false,false,0⟩,⟨0,0,true,some .internalNl,none,none,true,true,0⟩],[⟨0,0,false,none,none,none,false,false,0⟩],[],[⟨0,0,true,none,none,none,false,false,0⟩,⟨0,0,true,none,none,none,true,false,0⟩,⟨0,0,true,some .internalNl,none,none,false,true,0⟩,⟨0,0,false,none,none,none,false,false,0⟩,⟨0,0,true,some .internalNl,none,none,true,true,0⟩],[⟨0,0,true,none,none,none,false,false,0⟩,⟨0,0,true,none,none,none,true,false,0⟩,⟨0,0,true,some .internalNl,none,none,false,true,0⟩,⟨0,0,false,none,none,none,false,false,0⟩,⟨0,0,true,some .internalNl,none,none,true,true,0⟩],[⟨0,0,true,none,none,none,true,false,0⟩,⟨0,0,true,some .internalNl,none,none,true,true,0⟩],[⟨0,0,true,none,none,none,true,false,0⟩,⟨0,0,true,some .internalNl,none,none,true,true,0⟩],[],[⟨0,0,true,none,none,none,true,false,0⟩,⟨0,0,true,some .internalNl,none,none,true,true,0⟩],[⟨0,0,true,none,none,none,true,false,0⟩,⟨0,0,true,some .internalNl,none,none,true,true,0⟩],[⟨0,0,true,none,none,none,true,false,0⟩],[⟨0,0,false,none,none,none,false,false,0⟩],[⟨0,0,false,none,none,none,false,false,0⟩],[⟨0,0,false,none,none,none,false,false,0⟩],[⟨0,0,false,none,none,none,false,false,0⟩],[⟨0,0,false,none,none,none,false,false,0⟩],[],[⟨0,0,false,none,none,none,false,false,0⟩],[⟨0,0,false,none,none,none,false,false,0⟩]]
theorem rhtml_line_closed1false : closed emb26_rows rhtml_line_tab1false (EA.start rhtml_M rhtml_line 1) (EA.succ rhtml_M rhtml_line (1, false)) (EA.eofOk rhtml_M rhtml_line (1, false)) = true := by
  decide +kernel
def rhtml_line_C1false : MCert rhtml_M rhtml_line (1, false) := ⟨emb26_D, rhtml_line_tab1false, rhtml_line_closed1false, (fun h => nomatch h)⟩
def rhtml_line_tab2false : List (List EA) := [[⟨0,0,true,none,none,none,false,false,0⟩],[⟨0,0,true,none,none,none,true,false,0⟩,⟨0,0,true,some .internalNl,none,none,true,true,0⟩],[⟨0,0,true,none,none,none,false,false,0⟩,⟨0,0,true,none,none,none,true,false,0⟩,⟨0,0,true,some .internalNl,none,none,false,true,0⟩,⟨0,0,true,some .internalNl,none,none,true,true,0⟩],[⟨0,0,true,none,none,none,false,false,0⟩,⟨0,0,true,none,none,none,true,false,0⟩,⟨0,0,true,some .internalNl,none,none,false,true,0⟩,⟨0,0,true,some .internalNl,none,none,true,true,0⟩],[⟨0,0,true,none,none,none,false,false,0⟩,⟨0,0,true,none,none,none,true,false,0⟩,⟨0,0,true,some .internalNl,none,none,false,true,0⟩,⟨0,0,true,some .internalNl,none,none,true,true,0⟩],[⟨0,0,true,none,none,none,false,false,0⟩,⟨0,0,true,none,none,none,true,false,0⟩,⟨0,0,true,some .internalNl,none,none,false,true,0⟩,⟨0,0,true,some .internalNl,none,none,true,true,0⟩],[⟨0,0,true,none,none,none,false,false,0⟩,⟨0,0,true,none,none,none,true,false,0⟩,⟨0,0,true,some .internalNl,none,none,false,true,0⟩,⟨0,0,true,some .internalNl,none,none,true,true,0⟩],[⟨0,0,true,none,none,none,false,false,0⟩,⟨0,0,true,none,none,none,true,false,0⟩,⟨0,0,true,some .internalNl,none,none,false,true,0⟩,⟨0,0,true,some .internalNl,none,none,true,true,0⟩],[⟨0,0,true,none,none,none,false,false,0⟩,⟨0,0,true,none,none,none,true,false,0⟩,⟨0,0,true,some .internalNl,none,none,false,true,0⟩,⟨0,0,true,some .internalNl,none,none,true,true,0⟩],[⟨0,0,true,none,none,none,false,false,0⟩,⟨0,0,true,none,none,none,true,false,0⟩,⟨0,0,true,some .internalNl,none,none,false,true,0⟩,⟨0,0,true,some .internalNl,none,none,true,true,0⟩],[⟨0,0,true,some .internalNl,none,none,false,true,0⟩],[⟨0,0,true,none,none,none,true,false,0⟩,⟨0,0,true,some .internalNl,none,none,true,true,0⟩],[⟨0,0,true,none,none,none,false,false,0⟩,⟨0,0,true,none,none,none,true,false,0⟩,⟨0,0,true,some .internalNl,none,none,false,true,0⟩,⟨0,0,true,some .internalNl,none,none,true,true,0⟩],[⟨0,0,true,none,none,none,false,false,0⟩,⟨0,0,true,none,none,none,true,false,0⟩,⟨0,0,true,some .internalNl,none,none,false,true,0⟩,⟨0,0,true,some .internalNl,none,none,true,true,0⟩],[⟨0,0,true,none,none,none,false,false,0⟩,⟨0,0,true,none,none,none,true,false,0⟩,⟨0,0,true,some .internalNl,none,none,false,true,0⟩,⟨0,0,true,some .internalNl,none,none,true,true,0⟩],[⟨0,0,true,none,none,none,false,false,0⟩,⟨0,0,true,none,none,none,true,false,0⟩,⟨0,0,true,some .internalNl,none,none,false,true,0⟩,⟨0,0,true,some .internalNl,none,none,true,true,0⟩],[⟨0,0,true,none,none,none,false,false,0⟩,⟨0,0,true,none,none,none,true,false,0⟩,⟨0,0,true,some .internalNl,none,none,false,true,0⟩,⟨0,0,true,some .internalNl,none,none,true,true,0⟩],[],[⟨0,0,false,none,none,none,false,false,0⟩],[⟨0,0,true,none,none,none,false,false,0⟩,⟨0,0,true,none,none,none,true,false,0⟩,⟨0,0,true,some .internalNl,none,none,false,true,0⟩,⟨0,0,true,some .internalNl,none,none,true,true,0⟩],[⟨0,0,true,none,none,none,false,false,0⟩,⟨0,0,true,none,none,none,true,false,0⟩,⟨0,0,true,some .internalNl,none,none,false,true,0⟩,⟨0,0,true,some .internalNl,none,none,true,true,0⟩],[⟨0,0,true,none,none,none,true,false,0⟩,⟨0,0,true,some .internalNl,none,none,true,true,0⟩],[⟨0,0,true,none,none,none,true,false,0⟩,⟨0,0,true,some .internalNl,none,none,true,true,0⟩],[⟨0,0,true,none,none,none,true,false,0⟩,⟨0,0,true,none,none,none,false,false,0⟩,⟨0,0,true,some .internalNl,none,none,false,true,0⟩,⟨0,0,true,some .internalNl,none,none,true,true,0⟩,⟨0,0,false,none,none,none,false,false,0⟩],[⟨0,0,true,none,none,none,true,false,0⟩,⟨0,0,true,none,none,none,false,false,0⟩,⟨0,0,true,some .internalNl,none,none,false,true,0⟩,⟨0,0,true,some .internalNl,none,none,true,true,0⟩,⟨0,0,false,none,none,none,false,false,0⟩],[⟨0,0,true,none,none,none,true,false,0⟩,⟨0,0,true,none,none,none,false,false,0⟩,⟨0,0,true,some .internalNl,none,none,false,true,0⟩,⟨0,0,true,some .internalNl,none,none,true,true,0⟩,⟨0,0,false,none,none,none,false,false,0⟩],[⟨0,0,true,none,none,none,true,false,0⟩,⟨0,0,true,none,none,none,false,false,0⟩,⟨0,0,true,some .internalNl,none,none,false,true,0⟩,⟨0,0,true,some .internalNl,none,none,true,true,0⟩,⟨0,0,false,none,none,none,false,false,0⟩],[⟨0,0,true,none,none,none,true,false,0⟩,⟨0,0,true,none,none,none,false,false,0⟩,⟨0,0,true,some .internalNl,none,none,false,true,0⟩,⟨0,0,true,some .internalNl,none,none,true,true,0⟩,⟨0,0,false,none,none,none,false,false,0⟩],[],[⟨0,0,true,none,none,none,true,false,0⟩,⟨0,0,true,none,none,none,false,false,0⟩,⟨0,0,true,some .internalNl,none,none,false,true,0⟩,⟨0,0,true,some .internalNl,none,none,true,true,0⟩,⟨0,0,false,none,none,none,false,false,0⟩],[⟨0,0,true,none,none,none,true,false,0⟩,⟨0,0,true,none,none,none,false,false,0⟩,⟨0,0,true,some .internalNl,none,none,false,true,0⟩,⟨0,0,true,some .internalNl,none,none,true,true,0⟩,⟨0,0,false,none,none,none,false,false,0⟩],[⟨0,0,true,none,none,none,false,false,0⟩,⟨0,0,true,some .internalNl,none,none,false,true,0⟩,⟨0,0,true,none,none,none,true,false,0⟩,⟨0,0,false,none,none,none,false,false,0⟩,⟨0,0,true,some .internalNl,none,none,true,true,0⟩],[⟨0,0,true,none,none,none,true,false,0⟩],[⟨0,0,false,none,none,none,false,false,0⟩],[⟨0,0,false,none,none,none,false,false,0⟩],[⟨0,0,false,none,none,none,false,false,0⟩],[⟨0,0,false,none,none,none,false,false,0⟩],[⟨0,0,false,none,none,none,false,false,0⟩],[],[⟨0,0,false,none,none,none,false,false,0⟩],[⟨0,0,false,none,none,none,false,false,0⟩],[⟨0,0,true,none,none,none,true,false,0⟩,⟨0,0,true,some .internalNl,none,none,true,true,0⟩],[⟨0,0,true,none,none,none,false,false,0⟩,⟨0,0,true,none,none,none,true,false,0⟩,⟨0,0,true,some .internalNl,none,none,false,true,0⟩,⟨0,0,false,none,none,none,false,false,0⟩,⟨0,0,true,some .internalNl,none,none,true,true,0⟩],[⟨0,0,true,none,none,none,false,false,0⟩,⟨0,0,true,none,none,none,true,false,0⟩,⟨0,0,true,some .internalNl,none,none,false,true,0⟩,⟨0,0,false,none,none,none,false,false,0⟩,⟨0,0,true,some .internalNl,none,none,true,true,0⟩],[⟨0,0,true,none,none,none,false,false,0⟩,⟨0,0,true,none,none,none,true,false,0⟩,⟨0,0,true,some .internalNl,none,none,false,true,0⟩,⟨0,0,false,none,none,none,false,false,0⟩,⟨0,0,true,some .internalNl,none,none,true,true,0⟩],[⟨0,0,true,none,none,none,false,false,0⟩,⟨0,0,true,none,none,none,true,false,0⟩,⟨0,0,true,some .internalNl,none,none,false,true,0⟩,⟨0,0,false,none,none,none,false,false,0⟩,⟨0,0,true,some .internalNl,none,none,true,true,0⟩],[⟨0,0,true,none,none,none,false,false,0⟩,⟨0,0,true,none,none,none,true,false,0⟩,⟨0,0,true,some .internalNl,none,none,false,true,0⟩,⟨0,0,false,none,none,none,false,false,0⟩,⟨0,0,true,some .internalNl,none,none,true,true,0⟩],[],[⟨0,0,false,none,none,none,false,false,0⟩],[⟨0,0,true,none,none,none,false,false,0⟩,⟨0,0,true,none,none,none,true,false,0⟩,⟨0,0,true,some .internalNl,none,none,false,true,0⟩,⟨0,0,false,none,none,none,false,false,0⟩,⟨0,0,true,some .internalNl,none,none,true,true,0⟩],[⟨0,0,true,none,none,none,false,false,0⟩,⟨0,0,true,none,none,none,true,false,0⟩,⟨0,0,true,some .internalNl,none,none,false,true,0⟩,⟨0,0,false,none,none,none,false,false,0⟩,⟨0,0,true,some .internalNl,none,none,true,true,0⟩],[⟨0,0,true,none,none,none,true,false,0⟩,⟨0,0,true,some .internalNl,none,none,true,true,0⟩],[⟨0,0,true,none,none,none,true,false,0⟩,⟨0,0,true,some .internalNl,none,none,true,true,0⟩],[],[⟨0,0,true,none,none,none,true,false,0⟩,⟨0,0,true,some .internalNl,none,none,true,true,0⟩],[⟨0,0,true,none,none,none,true,false,0⟩,⟨0,0,true,some .internalNl,none,none,true,true,0⟩],[⟨0,0,true,none,none,none,true,false,0⟩],[⟨0,0,false,none,none,none,false,false,0⟩],[⟨0,0,false,none,none,none,false,false,0⟩],[⟨0,0,false,none,none,none,false,false,0⟩],[⟨0,0,false,none,none,none,false,false,0⟩],[⟨0,0,false,none,none,none,false,false,0⟩],[],[⟨0,0,false,none,none,none,false,false,0⟩],[⟨0,0,false,none,none,none,false,false,0⟩]]
theorem rhtml_line_closed2false : closed emb27_rows rhtml_line_tab2false (EA.start rhtml_M rhtml_line 2) (EA.succ rhtml_M rhtml_line (2, false)) (EA.eofOk rhtml_M rhtml_line (2, false)) = true := by
  decide +kernel
def rhtml_line_C2false : MCert rhtml_M rhtml_line (2, false) := ⟨emb27_D, rhtml_line_tab2false, rhtml_line_closed2false, (fun h => nomatch h)⟩
theorem rhtml_line_certs : ∀ u ∈ rhtml_line.use, Nonempty (MCert rhtml_M rhtml_line u) :=
  (List.forall_mem_cons.mpr ⟨⟨rhtml_line_C6false⟩,
  (List.forall_mem_cons.mpr ⟨⟨rhtml_line_C3true⟩,
  (List.forall_mem_cons.mpr ⟨⟨rhtml_line_C4true⟩,
  (List.forall_mem_cons.mpr ⟨⟨rhtml_line_C5true⟩,
  (List.forall_mem_cons.mpr ⟨⟨rhtml_line_C0false⟩,
  (List.forall_mem_cons.mpr ⟨⟨rhtml_line_C1false⟩,
  (List.forall_mem_cons.mpr ⟨⟨rhtml_line_C2false⟩,
  (fun _ h => nomatch h)⟩)⟩)⟩)⟩)⟩)⟩)⟩)

def rhtml_entity : EOpt := ⟨false, false, false, [(10,false),(7,true),(8,true),(9,true)], 4⟩
def rhtml_entity_tab10false : List (List EA) := [[⟨0,0,false,none,none,none,false,false,0⟩],[⟨1,0,false,some (.own 0),some 3,none,false,true,0⟩,⟨2,0,false,some (.own 0),some 3,none,false,true,0⟩,⟨3,0,false,some (.own 0),some 3,none,false,true,0⟩],[⟨1,0,false,some (.own 1),some 5,none,false,true,0⟩],[⟨2,0,false,some (.own 1),some 5,none,false,true,0⟩],[⟨2,0,false,some (.own 1),some 5,none,false,true,0⟩],[⟨3,0,false,some (.own 1),some 5,none,false,true,0⟩],[⟨3,0,false,some (.own 1),some 5,none,false,true,0⟩],[⟨3,0,false,some (.own 1),some 5,none,false,true,0⟩],[⟨3,0,false,some (.own 1),some 5,none,false,true,0⟩],[⟨3,0,false,some (.own 1),some 5,none,false,true,0⟩],[⟨3,0,false,some (.own 1),some 5,none,false,true,0⟩],[⟨3,0,false,some (.own 1),some 5,none,false,true,0⟩],[⟨3,0,false,some (.own 1),some 5,none,false,true,0⟩],[⟨3,0,false,some (.own 1),some 5,none,false,true,0⟩],[⟨3,0,false,some (.own 1),some 5,none,false,true,0⟩],[⟨3,0,false,some (.own 1),some 5,none,false,true,0⟩],[⟨3,0,false,some (.own 1),some 5,none,false,true,0⟩],[⟨3,0,false,some (.own 1),some 5,none,false,true,0⟩],[⟨3,0,false,some (.own 1),some 5,none,false,true,0⟩],[⟨3,0,false,some (.own 1),some 5,none,false,true,0⟩],[⟨3,0,false,some (.own 1),some 5,none,false,true,0⟩],[⟨3,0,false,some (.own 1),some 5,none,false,true,0⟩],[⟨3,0,false,some (.own 1),some 5,none,false,true,0⟩],[⟨3,0,false,some (.own 1),some 5,none,false,true,0⟩],[⟨3,0,false,some (.own 1),some 5,none,false,true,0⟩],[⟨3,0,false,some (.own 1),some 5,none,false,true,0⟩],[⟨3,0,false,some (.own 1),some 5,none,false,true,0⟩],[⟨3,0,false,some (.own 1),some 5,none,false,true,0⟩],[⟨3,0,false,some (.own 1),some 5,none,false,true,0⟩],[⟨3,0,false,some (.own 1),some 5,none,false,true,0⟩],[⟨3,0,false,some (.own 1),some 5,none,false,true,0⟩],[⟨3,0,false,some (.own 1),some 5,none,false,true,0⟩],[⟨3,0,false,some (.own 1),some 5,none,false,true,0⟩],[⟨3,0,false,some (.own 1),some 5,none,false,true,0⟩],[⟨3,0,false,some (.own 1),some 5,none,false,true,0⟩],[⟨3,0,false,some (.own 1),some 5,none,false,true,0⟩],[⟨3,0,false,some (.own 1),some 5,none,false,true,0⟩],[⟨3,0,false,some (.own 1),some 5,none,false,true,0⟩],[⟨3,0,false,some (.own 1),some 5,none,false,true,0⟩],[⟨3,0,false,some (.own 1),some 5,none,false,true,0⟩],[⟨3,0,false,some (.own 1),some 5,none,false,true,0⟩],[⟨3,0,false,some (.own 1),some 5,none,false,true,0⟩],[⟨3,0,false,some (.own 1),some 5,none,false,true,0⟩],[⟨3,0,false,some (.own 1),some 5,none,false,true,0⟩],[⟨3,0,false,some (.own 1),some 5,none,false,true,0⟩],[⟨3,0,false,some (.own 1),some 5,none,false,true,0⟩]]
theorem rhtml_entity_closed10false : closed emb31_rows rhtml_entity_tab10false (EA.start rhtml_M rhtml_entity 10) (EA.succ rhtml_M rhtml_entity (10, false)) (EA.eofOk rhtml_M rhtml_entity (10, false)) = true := by
  decide +kernel
def rhtml_entity_C10false : MCert rhtml_M rhtml_entity (10, false) := ⟨emb31_D, rhtml_entity_tab10false, rhtml_entity_closed10false, (fun h => nomatch h)⟩
def rhtml_entity_tab7true : List (List EA) := [[⟨0,0,false,none,none,none,false,false,0⟩],[⟨1,0,false,some (.own 0),some 1,none,false,true,0⟩,⟨2,0,false,some (.own 0),some 1,none,false,true,0⟩,⟨3,0,false,some (.own 0),some 1,none,false,true,0⟩],[⟨1,0,false,some (.own 1),some 3,none,false,true,0⟩],[⟨1,0,false,none,some 3,none,false,false,0⟩],[⟨2,0,false,some (.own 1),some 3,none,false,true,0⟩],[⟨2,0,false,none,some 3,none,false,false,0⟩],[⟨3,0,false,some (.own 1),some 3,none,false,true,0⟩],[⟨3,0,false,some (.own 1),some 3,none,false,true,0⟩],[⟨3,0,false,none,some 3,none,false,false,0⟩],[⟨3,0,false,none,some 3,none,false,false,0⟩],[⟨3,0,false,none,some 3,none,false,false,0⟩],[⟨3,0,false,none,some 3,none,false,false,0⟩],[⟨3,0,false,none,some 3,none,false,false,0⟩],[⟨3,0,false,none,some 3,none,false,false,0⟩,⟨3,0,true,some .internalNl,some 3,none,false,true,0⟩],[⟨3,0,false,some .internalNl,some 3,none,false,true,0⟩,⟨3,0,true,some .internalNl,some 3,none,false,true,0⟩],[⟨3,0,false,some .internalNl,some 3,none,false,true,0⟩,⟨3,0,true,some .internalNl,some 3,none,false,true,0⟩],[⟨3,0,false,none,some 3,none,false,false,0⟩,⟨3,0,true,some .internalNl,some 3,none,false,true,0⟩],[⟨3,0,false,some .internalNl,some 3,none,false,true,0⟩,⟨3,0,true,some .internalNl,some 3,none,false,true,0⟩],[⟨3,0,false,some .internalNl,some 3,none,false,true,0⟩,⟨3,0,true,some .internalNl,some 3,none,false,true,0⟩],[⟨3,0,true,some .internalNl,some 3,none,false,true,0⟩]]
theorem rhtml_entity_closed7true : closed emb3_rows rhtml_entity_tab7true (EA.start rhtml_M rhtml_entity 7) (EA.succ rhtml_M rhtml_entity (7, true)) (EA.eofOk rhtml_M rhtml_entity (7, true)) = true := by
  decide +kernel
def rhtml_entity_C7true : MCert rhtml_M rhtml_entity (7, true) := ⟨emb3_D, rhtml_entity_tab7true, rhtml_entity_closed7true, (fun h => nomatch h)⟩
def rhtml_entity_tab8true : List (List EA) := [[⟨0,0,false,none,none,none,false,false,0⟩],[⟨1,0,false,some (.own 0),some 1,none,false,true,0⟩,⟨2,0,false,some (.own 0),some 1,none,false,true,0⟩,⟨3,0,false,some (.own 0),some 1,none,false,true,0⟩],[⟨1,0,false,some (.own 1),some 3,none,false,true,0⟩],[⟨1,0,false,none,some 3,none,false,false,0⟩],[⟨2,0,false,some (.own 1),some 3,none,false,true,0⟩],[⟨2,0,false,some (.own 1),some 2,none,false,true,0⟩],[⟨2,0,false,none,some 3,none,false,false,0⟩],[⟨3,0,false,some (.own 1),some 3,none,false,true,0⟩],[⟨3,0,false,some (.own 1),some 3,none,false,true,0⟩],[⟨3,0,false,some (.own 1),some 2,none,false,true,0⟩],[⟨3,0,false,none,some 3,none,false,false,0⟩],[⟨3,0,false,none,some 3,none,false,false,0⟩],[⟨3,0,false,none,some 3,none,false,false,0⟩],[⟨3,0,false,none,some 3,none,false,false,0⟩],[⟨3,0,false,none,some 3,none,false,false,0⟩],[⟨3,0,false,none,some 3,none,false,false,0⟩],[⟨3,0,false,none,some 3,none,false,false,0⟩,⟨3,0,true,some .internalNl,some 3,none,false,true,0⟩],[⟨3,0,false,some .internalNl,some 3,none,false,true,0⟩,⟨3,0,true,some .internalNl,some 3,none,false,true,0⟩],[⟨3,0,false,some .internalNl,some 3,none,false,true,0⟩,⟨3,0,true,some .internalNl,some 3,none,false,true,0⟩],[⟨3,0,false,none,some 3,none,false,false,0⟩,⟨3,0,true,some .internalNl,some 3,none,false,true,0⟩],[⟨3,0,false,some .internalNl,some 3,none,false,true,0⟩,⟨3,0,true,some .internalNl,some 3,none,false,true,0⟩],[⟨3,0,false,some .internalNl,some 3,none,false,true,0⟩,⟨3,0,true,some .internalNl,some 3,none,false,true,0⟩],[⟨3,0,true,some .internalNl,some 3,none,false,true,0⟩]]
theorem rhtml_entity_closed8true : closed emb4_rows rhtml_entity_tab8true (EA.start rhtml_M rhtml_entity 8) (EA.succ rhtml_M rhtml_entity (8, true)) (EA.eofOk rhtml_M rhtml_entity (8, true)) = true := by
  decide +kernel
def rhtml_entity_C8true : MCert rhtml_M rhtml_entity (8, true) := ⟨emb4_D, rhtml_entity_tab8true, rhtml_entity_closed8true, (fun h => nomatch h)⟩
def rhtml_entity_tab9true : List (List EA) := [[⟨0,0,false,none,none,none,false,false,0⟩],[⟨1,0,false,some (.own 0),some 1,none,false,true,0⟩,⟨2,0,false,some (.own 0),some 1,none,false,true,0⟩,⟨3,0,false,some (.own 0),some 1,none,false,true,0⟩],[⟨1,0,false,some (.own 1),some 2,none,false,true,0⟩],[⟨1,0,false,none,some 3,none,false,false,0⟩],[⟨1,0,false,some (.own 1),some 3,none,false,true,0⟩],[⟨2,0,false,some (.own 1),some 2,none,false,true,0⟩,⟨3,0,false,some (.own 1),some 2,none,false,true,0⟩],[⟨2,0,false,some (.own 1),some 3,none,false,true,0⟩],[⟨3,0,false,some (.own 1),some 3,none,false,true,0⟩],[⟨3,0,false,some (.own 1),some 3,none,false,true,0⟩],[⟨3,0,false,some (.own 1),some 3,none,false,true,0⟩],[⟨3,0,false,some (.own 1),some 3,none,false,true,0⟩],[⟨3,0,false,some (.own 1),some 3,none,false,true,0⟩],[⟨3,0,false,some (.own 1),some 3,none,false,true,0⟩],[⟨3,0,false,some (.own 1),some 3,none,false,true,0⟩],[⟨3,0,false,some (.own 1),some 3,none,false,true,0⟩]]
theorem rhtml_entity_closed9true : closed emb51_rows rhtml_entity_tab9true (EA.start rhtml_M rhtml_entity 9) (EA.succ rhtml_M rhtml_entity (9, true)) (EA.eofOk rhtml_M rhtml_entity (9, true)) = true := by
  decide +kernel
def rhtml_entity_C9true : MCert rhtml_M rhtml_entity (9, true) := ⟨emb51_D, rhtml_entity_tab9true, rhtml_entity_closed9true, (fun h => nomatch h)⟩
theorem rhtml_entity_certs : ∀ u ∈ rhtml_entity.use, Nonempty (MCert rhtml_M rhtml_entity u) :=
  (List.forall_mem_cons.mpr ⟨⟨rhtml_entity_C10false⟩,
  (List.forall_mem_cons.mpr ⟨⟨rhtml_entity_C7true⟩,
  (List.forall_mem_cons.mpr ⟨⟨rhtml_entity_C8true⟩,
  (List.forall_mem_cons.mpr ⟨⟨rhtml_entity_C9true⟩,
  (fun _ h => nomatch h)⟩)⟩)⟩)⟩)

def rhtml_entityt : EOpt := ⟨true, true, false, [(10,false),(7,true),(8,true),(9,true)], 4⟩
def rhtml_entityt_tab10false : List (List EA) := [[⟨0,0,false,none,none,none,false,false,0⟩],[⟨1,0,false,some (.own 0),some 3,none,false,true,0⟩,⟨2,0,false,some (.own 0),some 3,none,false,true,0⟩,⟨3,0,false,some (.own 0),some 3,none,false,true,0⟩],[⟨1,0,false,some (.own 1),some 5,none,false,true,1⟩],[⟨2,0,false,some (.own 1),some 5,none,false,true,0⟩],[⟨2,0,false,some (.own 1),some 5,none,false,true,0⟩],[⟨3,0,false,some (.own 1),some 5,none,false,true,0⟩],[⟨3,0,false,some (.own 1),some 5,none,false,true,0⟩],[⟨3,0,false,some (.own 1),some 5,none,false,true,0⟩],[⟨3,0,false,some (.own 1),some 5,none,false,true,0⟩],[⟨3,0,false,some (.own 1),some 5,none,false,true,0⟩],[⟨3,0,false,some (.own 1),some 5,none,false,true,0⟩],[⟨3,0,false,some (.own 1),some 5,none,false,true,0⟩],[⟨3,0,false,some (.own 1),some 5,none,false,true,0⟩],[⟨3,0,false,some (.own 1),some 5,none,false,true,0⟩],[⟨3,0,false,some (.own 1),some 5,none,false,true,0⟩],[⟨3,0,false,some (.own 1),some 5,none,false,true,0⟩],[⟨3,0,false,some (.own 1),some 5,none,false,true,0⟩],[⟨3,0,false,some (.own 1),some 5,none,false,true,0⟩],[⟨3,0,false,some (.own 1),some 5,none,false,true,0⟩],[⟨3,0,false,some (.own 1),some 5,none,false,true,0⟩],[⟨3,0,false,some (.own 1),some 5,none,false,true,0⟩],[⟨3,0,false,some (.own 1),some 5,none,false,true,0⟩],[⟨3,0,false,some (.own 1),some 5,none,false,true,0⟩],[⟨3,0,false,some (.own 1),some 5,none,false,true,0⟩],[⟨3,0,false,some (.own 1),some 5,none,false,true,0⟩],[⟨3,0,false,some (.own 1),some 5,none,false,true,0⟩],[⟨3,0,false,some (.own 1),some 5,none,false,true,0⟩],[⟨3,0,false,some (.own 1),some 5,none,false,true,0⟩],[⟨3,0,false,some (.own 1),some 5,none,false,true,0⟩],[⟨3,0,false,some (.own 1),some 5,none,false,true,0⟩],[⟨3,0,false,some (.own 1),some 5,none,false,true,0⟩],[⟨3,0,false,some (.own 1),some 5,none,false,true,0⟩],[⟨3,0,false,some (.own 1),some 5,none,false,true,0⟩],[⟨3,0,false,some (.own 1),some 5,none,false,true,0⟩],[⟨3,0,false,some (.own 1),some 5,none,false,true,0⟩],[⟨3,0,false,some (.own 1),some 5,none,false,true,0⟩],[⟨3,0,false,some (.own 1),some 5,none,false,true,0⟩],[⟨3,0,false,some (.own 1),some 5,none,false,true,0⟩],[⟨3,0,false,some (.own 1),some 5,none,false,true,0⟩],[⟨3,0,false,some (.own 1),some 5,none,false,true,0⟩],[⟨3,0,false,some (.own 1),some 5,none,false,true,0⟩],[⟨3,0,false,some (.own 1),some 5,none,false,true,0⟩],[⟨3,0,false,some (.own 1),some 5,none,false,true,0⟩],[⟨3,0,false,some (.own 1),some 5,none,false,true,0⟩],[⟨3,0,false,some (.own 1),some 5,none,false,true,0⟩],[⟨3,0,false,some (.own 1),some 5,none,false,true,0⟩]]
theorem rhtml_entityt_closed10false : closed emb31_rowst rhtml_entityt_tab10false (EA.start rhtml_M rhtml_entityt 10) (EA.succ rhtml_M rhtml_entityt (10, false)) (EA.eofOk rhtml_M rhtml_entityt (10, false)) = true := by
  decide +kernel
def rhtml_entityt_C10false : MCert rhtml_M rhtml_entityt (10, false) := ⟨emb31_Dt, rhtml_entityt_tab10false, rhtml_entityt_closed10false, (fun _ => ⟨by decide +kernel, by decide +kernel, by decide +kernel⟩)⟩
def rhtml_entityt_tab7true : List (List EA) := [[⟨0,0,false,none,none,none,false,false,0⟩],[⟨1,0,false,some (.own 0),some 1,none,false,true,0⟩,⟨2,0,false,some (.own 0),some 1,none,false,true,0⟩,⟨3,0,false,some (.own 0),some 1,none,false,true,0⟩],[⟨1,0,false,some (.own 1),some 3,none,false,true,0⟩],[⟨1,0,false,none,some 3,none,false,false,1⟩],[⟨2,0,false,some (.own 1),some 3,none,false,true,0⟩],[⟨2,0,false,none,some 3,none,false,false,2⟩],[⟨3,0,false,some (.own 1),some 3,none,false,true,0⟩],[⟨3,0,false,some (.own 1),some 3,none,false,true,0⟩],[⟨3,0,false,none,some 3,none,false,false,2⟩],[⟨3,0,false,none,some 3,none,false,false,2⟩],[⟨3,0,false,none,some 3,none,false,false,2⟩],[⟨3,0,false,none,some 3,none,false,false,2⟩],[⟨3,0,false,none,some 3,none,false,false,2⟩],[⟨3,0,false,none,some 3,none,false,false,2⟩],[],[],[],[],[],[]]
theorem rhtml_entityt_closed7true : closed emb3_rowst rhtml_entityt_tab7true (EA.start rhtml_M rhtml_entityt 7) (EA.succ rhtml_M rhtml_entityt (7, true)) (EA.eofOk rhtml_M rhtml_entityt (7, true)) = true := by
  decide +kernel
def rhtml_entityt_C7true : MCert rhtml_M rhtml_entityt (7, true) := ⟨emb3_Dt, rhtml_entityt_tab7true, rhtml_entityt_closed7true, (fun _ => ⟨by decide +kernel, by decide +kernel, by decide +kernel⟩)⟩
def rhtml_entityt_tab8true : List (List EA) := [[⟨0,0,false,none,none,none,false,false,0⟩],[⟨1,0,false,some (.own 0),some 1,none,false,true,0⟩,⟨2,0,false,some (.own 0),some 1,none,false,true,0⟩,⟨3,0,false,some (.own 0),some 1,none,false,true,0⟩],[⟨1,0,false,some (.own 1),some 3,none,false,true,0⟩],[⟨1,0,false,none,some 3,none,false,false,1⟩],[⟨2,0,false,some (.own 1),some 3,none,false,true,0⟩],[⟨2,0,false,some (.own 1),some 2,none,false,true,0⟩],[⟨2,0,false,none,some 3,none,false,false,2⟩],[⟨3,0,false,some (.own 1),some 3,none,false,true,0⟩],[⟨3,0,false,some (.own 1),some 3,none,false,true,0⟩],[⟨3,0,false,some (.own 1),some 2,none,false,true,0⟩],[⟨3,0,false,none,some 3,none,false,false,2⟩],[⟨3,0,false,none,some 3,none,false,false,2⟩],[⟨3,0,false,none,some 3,none,false,false,2⟩],[⟨3,0,false,none,some 3,none,false,false,2⟩],[⟨3,0,false,none,some 3,none,false,false,2⟩],[⟨3,0,false,none,some 3,none,false,false,2⟩],[⟨3,0,false,none,some 3,none,false,false,2⟩],[],[],[],[],[],[]]
theorem rhtml_entityt_closed8true : closed emb4_rowst rhtml_entityt_tab8true (EA.start rhtml_M rhtml_entityt 8) (EA.succ rhtml_M rhtml_entityt (8, true)) (EA.eofOk rhtml_M rhtml_entityt (8, true)) = true := by
  decide +kernel
def rhtml_entityt_C8true : MCert rhtml_M rhtml_entityt (8, true) := ⟨emb4_Dt, rhtml_entityt_tab8true, rhtml_entityt_closed8true, (fun _ => ⟨by decide +kernel, by decide +kernel, by decide +kernel⟩)⟩
def rhtml_entityt_tab9true : List (List EA) := [[⟨0,0,false,none,none,none,false,false,0⟩],[⟨1,0,false,some (.own 0),some 1,none,false,true,0⟩,⟨2,0,false,some (.own 0),some 1,none,false,true,0⟩,⟨3,0,false,some (.own 0),some 1,none,false,true,0⟩],[⟨1,0,false,some (.own 1),some 2,none,false,true,0⟩],[⟨1,0,false,none,some 3,none,false,false,0⟩],[⟨1,0,false,some (.own 1),some 3,none,false,true,0⟩],[⟨2,0,false,some (.own 1),some 2,none,false,true,0⟩,⟨3,0,false,some (.own 1),some 2,none,false,true,0⟩],[⟨2,0,false,some (.own 1),some 3,none,false,true,0⟩],[⟨3,0,false,some (.own 1),some 3,none,false,true,0⟩],[⟨3,0,false,some (.own 1),some 3,none,false,true,0⟩],[⟨3,0,false,some (.own 1),some 3,none,false,true,0⟩],[⟨3,0,false,some (.own 1),some 3,none,false,true,0⟩],[⟨3,0,false,some (.own 1),some 3,none,false,true,0⟩],[⟨3,0,false,some (.own 1),some 3,none,false,true,0⟩],[⟨3,0,false,some (.own 1),some 3,none,false,true,0⟩],[⟨3,0,false,some (.own 1),some 3,none,false,true,0⟩]]
theorem rhtml_entityt_closed9true : closed emb51_rowst rhtml_entityt_tab9true (EA.start rhtml_M rhtml_entityt 9) (EA.succ rhtml_M rhtml_entityt (9, true)) (EA.eofOk rhtml_M rhtml_entityt (9, true)) = true := by
  decide +kernel
def rhtml_entityt_C9true : MCert rhtml_M rhtml_entityt (9, true) := ⟨emb51_Dt, rhtml_entityt_tab9true, rhtml_entityt_closed9true, (fun _ => ⟨by decide +kernel, by decide +kernel, by decide +kernel⟩)⟩
theorem rhtml_entityt_certs : ∀ u ∈ rhtml_entityt.use, Nonempty (MCert rhtml_M rhtml_entityt u) :=
  (List.forall_mem_cons.mpr ⟨⟨rhtml_entityt_C10false⟩,
  (List.forall_mem_cons.mpr ⟨⟨rhtml_entityt_C7true⟩,
  (List.forall_mem_cons.mpr ⟨⟨rhtml_entityt_C8true⟩,
  (List.forall_mem_cons.mpr ⟨⟨rhtml_entityt_C9true⟩,
  (fun _ h => nomatch h)⟩)⟩)⟩)⟩)

theorem vbAspx_m0 : Emb.VbAspx.vb_aspx_comment.mach = ⟨emb25_nfa, [.none], false⟩ := by decide +kernel
theorem vbAspx_m1 : Emb.VbAspx.vb_aspx_sq_str.mach = ⟨emb26_nfa, [.none], false⟩ := by decide +kernel
theorem vbAspx_m2 : Emb.VbAspx.vb_aspx_dq_str.mach = ⟨emb27_nfa, [.none], false⟩ := by decide +kernel
theorem vbAspx_m3 : Emb.VbAspx.vb_aspx_css_line.mach = ⟨emb0_nfa, [.none,.cb 1,.none,.none,.cb 1,.cb 1], true⟩ := by decide +kernel
theorem vbAspx_m4 : Emb.VbAspx.vb_aspx_js_line.mach = ⟨emb1_nfa, [.none,.cb 2,.none,.none,.cb 2,.cb 2], true⟩ := by decide +kernel
theorem vbAspx_m5 : Emb.VbAspx.vb_aspx_cs_line.mach = ⟨emb52_nfa, [.none,.cb 3,.none,.none,.cb 3,.cb 3], true⟩ := by decide +kernel
theorem vbAspx_m6 : Emb.VbAspx.vb_aspx_line.mach = ⟨emb47_nfa, [.call 3,.call 4,.call 5,.cb 0,.goto 0,.goto 1,.goto 2,.cb 0,.cb 0], true⟩ := by decide +kernel
theorem vbAspx_m7 : Emb.VbAspx.vb_aspx_css_entity.mach = ⟨emb3_nfa, [.none,.ecb 1,.ecb 1,.none], true⟩ := by decide +kernel
theorem vbAspx_m8 : Emb.VbAspx.vb_aspx_js_entity.mach = ⟨emb4_nfa, [.none,.ecb 2,.ecb 2,.none], true⟩ := by decide +kernel
theorem vbAspx_m9 : Emb.VbAspx.vb_aspx_cs_entity.mach = ⟨emb53_nfa, [.none,.ecb 3,.ecb 3,.none], true⟩ := by decide +kernel
theorem vbAspx_m10 : Emb.VbAspx.vb_aspx_entity.mach = ⟨emb49_nfa, [.call 7,.call 8,.call 9,.ecb 0,.ecb 0,.none], true⟩ := by decide +kernel

/-- The machines of `Emb.VbAspx.parser`, with their automata as literals. -/
def vbAspx_M : Multi := ⟨Emb.VbAspx.parser.sws, [
  ⟨emb25_nfa, [.none], false⟩,
  ⟨emb26_nfa, [.none], false⟩,
  ⟨emb27_nfa, [.none], false⟩,
  ⟨emb0_nfa, [.none,.cb 1,.none,.none,.cb 1,.cb 1], true⟩,
  ⟨emb1_nfa, [.none,.cb 2,.none,.none,.cb 2,.cb 2], true⟩,
  ⟨emb52_nfa, [.none,.cb 3,.none,.none,.cb 3,.cb 3], true⟩,
  ⟨emb47_nfa, [.call 3,.call 4,.call 5,.cb 0,.goto 0,.goto 1,.goto 2,.cb 0,.cb 0], true⟩,
  ⟨emb3_nfa, [.none,.ecb 1,.ecb 1,.none], true⟩,
  ⟨emb4_nfa, [.none,.ecb 2,.ecb 2,.none], true⟩,
  ⟨emb53_nfa, [.none,.ecb 3,.ecb 3,.none], true⟩,
  ⟨emb49_nfa, [.call 7,.call 8,.call 9,.ecb 0,.ecb 0,.none], true⟩]⟩
theorem vbAspx_M_eq : Emb.VbAspx.parser.multi = vbAspx_M := by
  show Multi.mk _ [Emb.VbAspx.vb_aspx_comment.mach, Emb.VbAspx.vb_aspx_sq_str.mach, Emb.VbAspx.vb_aspx_dq_str.mach, Emb.VbAspx.vb_aspx_css_line.mach, Emb.VbAspx.vb_aspx_js_line.mach, Emb.VbAspx.vb_aspx_cs_line.mach, Emb.VbAspx.vb_aspx_line.mach, Emb.VbAspx.vb_aspx_css_entity.mach, Emb.VbAspx.vb_aspx_js_entity.mach, Emb.VbAspx.vb_aspx_cs_entity.mach, Emb.VbAspx.vb_aspx_entity.mach] = _
  rw [vbAspx_m0, vbAspx_m1, vbAspx_m2, vbAspx_m3, vbAspx_m4, vbAspx_m5, vbAspx_m6, vbAspx_m7, vbAspx_m8, vbAspx_m9, vbAspx_m10]; rfl

def vbAspx_line : EOpt := ⟨false, false, false, [(6,false),(3,true),(4,true),(5,true),(0,false),(1,false),(2,false)], 4⟩
def vbAspx_line_tab6false : List (List EA) := [[⟨0,0,false,none,none,none,false,false,0⟩],[⟨1,0,false,some (.own 0),some 3,none,false,true,0⟩,⟨2,0,false,some (.own 0),some 3,none,false,true,0⟩,⟨3,0,false,some (.own 0),some 3,none,false,true,0⟩],[⟨1,0,false,some .newline,none,none,false,false,0⟩],[⟨1,0,false,some .newline,some 7,none,false,false,0⟩],[⟨1,0,false,some (.own 5),some 8,none,false,true,0⟩],[⟨2,0,false,some (.own 5),some 8,none,false,true,0⟩],[⟨2,0,false,some (.own 5),some 8,none,false,true,0⟩],[⟨3,0,false,some (.own 5),some 8,none,false,true,0⟩],[⟨3,0,false,some (.own 5),some 8,none,false,true,0⟩],[⟨3,0,false,some (.own 5),some 8,none,false,true,0⟩],[⟨3,0,false,some (.own 5),some 8,none,false,true,0⟩],[⟨3,0,false,some (.own 5),some 8,none,false,true,0⟩],[⟨3,0,false,some (.own 5),some 8,none,false,true,0⟩],[⟨3,0,false,some (.own 5),some 8,none,false,true,0⟩],[⟨3,0,false,some (.own 5),some 8,none,false,true,0⟩],[⟨3,0,false,some (.own 5),some 8,none,false,true,0⟩],[⟨3,0,false,some (.own 5),some 8,none,false,true,0⟩],[⟨3,0,false,some (.own 5),some 8,none,false,true,0⟩],[⟨3,0,false,some (.own 5),some 8,none,false,true,0⟩],[⟨3,0,false,some (.own 5),some 8,none,false,true,0⟩],[⟨3,0,false,some (.own 5),some 8,none,false,true,0⟩],[⟨3,0,false,some (.own 5),some 8,none,false,true,0⟩],[⟨3,0,false,some (.own 5),some 8,none,false,true,0⟩],[⟨3,0,false,some (.own 5),some 8,none,false,true,0⟩],[⟨3,0,false,some (.own 5),some 8,none,false,true,0⟩],[⟨3,0,false,some (.own 5),some 8,none,false,true,0⟩],[⟨3,0,false,some (.own 5),some 8,none,false,true,0⟩],[⟨3,0,false,some (.own 5),some 8,none,false,true,0⟩],[⟨3,0,false,some (.own 5),some 8,none,false,true,0⟩],[⟨3,0,false,some (.own 5),some 8,none,false,true,0⟩],[⟨3,0,false,some (.own 5),some 8,none,false,true,0⟩],[⟨3,0,false,some (.own 5),some 8,none,false,true,0⟩],[⟨3,0,false,some (.own 5),some 8,none,false,true,0⟩],[⟨3,0,false,some (.own 5),some 8,none,false,true,0⟩],[⟨3,0,false,some (.own 5),some 8,none,false,true,0⟩],[⟨3,0,false,some (.own 5),some 8,none,false,true,0⟩],[⟨3,0,false,some (.own 5),some 8,none,false,true,0⟩],[⟨3,0,false,some (.own 5),some 8,none,false,true,0⟩],[⟨3,0,false,some (.own 5),some 8,none,false,true,0⟩],[⟨3,0,false,some (.own 5),some 8,none,false,true,0⟩],[⟨3,0,false,some (.own 5),some 8,none,false,true,0⟩],[⟨3,0,false,some (.own 5),some 8,none,false,true,0⟩],[⟨3,0,false,some (.own 5),some 8,none,false,true,0⟩],[⟨3,0,false,some (.own 5),some 8,none,false,true,0⟩],[⟨3,0,false,some (.own 5),some 8,none,false,true,0⟩],[⟨3,0,false,some (.own 5),some 8,none,false,true,0⟩],[⟨3,0,false,some (.own 5),some 8,none,false,true,0⟩],[⟨3,0,false,some (.own 5),some 8,none,false,true,0⟩],[⟨3,0,false,some (.own 5),some 8,none,false,true,0⟩],[⟨3,0,false,some (.own 5),some 8,none,false,true,0⟩],[⟨3,0,false,some (.own 5),some 8,none,false,true,0⟩],[⟨3,0,false,some (.own 5),some 8,none,false,true,0⟩],[⟨3,0,false,some (.own 5),some 8,none,false,true,0⟩],[⟨3,0,false,some (.own 5),some 8,none,false,true,0⟩],[⟨3,0,false,some (.own 5),some 8,none,false,true,0⟩],[⟨3,0,false,some (.own 5),some 8,none,false,true,0⟩],[⟨3,0,false,some (.own 5),some 8,none,false,true,0⟩],[⟨3,0,false,some (.own 5),some 8,none,false,true,0⟩],[⟨3,0,false,some (.own 5),some 8,none,false,true,0⟩],[⟨3,0,false,some (.own 5),some 8,none,false,true,0⟩],[⟨3,0,false,some (.own 5),some 8,none,false,true,0⟩],[⟨3,0,false,some (.own 5),some 8,none,false,true,0⟩],[⟨3,0,false,some (.own 5),some 8,none,false,true,0⟩],[⟨3,0,false,some (.own 5),some 8,none,false,true,0⟩],[⟨3,0,false,some (.own 5),some 8,none,false,true,0⟩],[⟨3,0,false,some (.own 5),some 8,none,false,true,0⟩],[⟨3,0,false,some (.own 5),some 8,none,false,true,0⟩],[⟨3,0,false,some (.own 5),some 8,none,false,true,0⟩],[⟨3,0,false,some (.own 5),some 8,none,false,true,0⟩],[⟨3,0,false,some (.own 5),some 8,none,false,true,0⟩],[⟨3,0,false,some (.own 5),some 8,none,false,true,0⟩],[⟨3,0,false,some (.own 5),some 8,none,false,true,0⟩],[⟨3,0,false,some (.own 5),some 8,none,false,true,0⟩]]
theorem vbAspx_line_closed6false : closed emb47_rows vbAspx_line_tab6false (EA.start vbAspx_M vbAspx_line 6) (EA.succ vbAspx_M vbAspx_line (6, false)) (EA.eofOk vbAspx_M vbAspx_line (6, false)) = true := by
  decide +kernel
def vbAspx_line_C6false : MCert vbAspx_M vbAspx_line (6, false) := ⟨emb47_D, vbAspx_line_tab6false, vbAspx_line_closed6false, (fun h => nomatch h)⟩
def vbAspx_line_tab3true : List (List EA) := [[⟨0,0,false,none,none,none,false,false,0⟩],[⟨1,0,false,some (.own 0),some 1,none,false,true,0⟩,⟨2,0,false,some (.own 0),some 1,none,false,true,0⟩,⟨3,0,false,some (.own 0),some 1,none,false,true,0⟩],[⟨1,0,false,some .newline,none,none,false,false,0⟩],[⟨1,0,false,some .newline,some 4,none,false,false,0⟩],[⟨1,0,true,some (.own 9),some 5,none,true,true,0⟩],[⟨1,0,true,some (.own 9),some 5,none,true,true,0⟩],[⟨1,0,false,some (.own 9),some 5,none,false,true,0⟩],[⟨1,0,false,some (.own 9),some 5,none,false,true,0⟩],[⟨2,0,true,some (.own 9),some 5,none,true,true,0⟩,⟨3,0,true,some (.own 9),some 5,none,true,true,0⟩,⟨3,0,true,some .internalNl,some 5,none,true,true,0⟩],[⟨2,0,true,some (.own 9),some 5,none,true,true,0⟩,⟨3,0,true,some (.own 9),some 5,none,true,true,0⟩,⟨3,0,true,some .internalNl,some 5,none,false,true,0⟩,⟨3,0,true,some .internalNl,some 5,none,true,true,0⟩],[⟨2,0,true,some (.own 9),some 5,none,true,true,0⟩,⟨3,0,true,some (.own 9),some 5,none,true,true,0⟩,⟨3,0,true,some .internalNl,some 5,none,false,true,0⟩,⟨3,0,true,some .internalNl,some 5,none,true,true,0⟩],[⟨2,0,true,some (.own 9),some 5,none,true,true,0⟩,⟨3,0,true,some (.own 9),some 5,none,true,true,0⟩,⟨3,0,true,some .internalNl,some 5,none,false,true,0⟩,⟨3,0,true,some .internalNl,some 5,none,true,true,0⟩],[⟨2,0,true,some (.own 9),some 5,none,true,true,0⟩,⟨3,0,true,some (.own 9),some 5,none,true,true,0⟩,⟨3,0,true,some .internalNl,some 5,none,false,true,0⟩,⟨3,0,true,some .internalNl,some 5,none,true,true,0⟩],[⟨2,0,true,some (.own 9),some 5,none,true,true,0⟩,⟨3,0,true,some (.own 9),some 5,none,true,true,0⟩,⟨3,0,true,some .internalNl,some 5,none,false,true,0⟩,⟨3,0,true,some .internalNl,some 5,none,true,true,0⟩],[⟨2,0,true,some (.own 9),some 5,none,true,true,0⟩,⟨3,0,true,some (.own 9),some 5,none,true,true,0⟩,⟨3,0,true,some .internalNl,some 5,none,false,true,0⟩,⟨3,0,true,some .internalNl,some 5,none,true,true,0⟩],[⟨2,0,true,some (.own 9),some 5,none,true,true,0⟩,⟨3,0,true,some (.own 9),some 5,none,true,true,0⟩,⟨3,0,true,some .internalNl,some 5,none,true,true,0⟩],[⟨2,0,true,some (.own 9),some 5,none,true,true,0⟩,⟨3,0,true,some (.own 9),some 5,none,true,true,0⟩,⟨3,0,true,some .internalNl,some 5,none,false,true,0⟩,⟨3,0,true,some .internalNl,some 5,none,true,true,0⟩],[⟨2,0,true,some (.own 9),some 5,none,true,true,0⟩,⟨3,0,true,some (.own 9),some 5,none,true,true,0⟩,⟨3,0,true,some .internalNl,some 5,none,false,true,0⟩,⟨3,0,true,some .internalNl,some 5,none,true,true,0⟩],[⟨2,0,true,some (.own 9),some 5,none,true,true,0⟩,⟨3,0,true,some (.own 9),some 5,none,true,true,0⟩,⟨3,0,true,some .internalNl,some 5,none,false,true,0⟩,⟨3,0,true,some .internalNl,some 5,none,true,true,0⟩],[⟨2,0,true,some (.own 9),some 5,none,true,true,0⟩,⟨3,0,true,some (.own 9),some 5,none,true,true,0⟩,⟨3,0,true,some .internalNl,some 5,none,false,true,0⟩,⟨3,0,true,some .internalNl,some 5,none,true,true,0⟩],[⟨2,0,true,some (.own 9),some 5,none,true,true,0⟩,⟨3,0,true,some (.own 9),some 5,none,true,true,0⟩,⟨3,0,true,some .internalNl,some 5,none,false,true,0⟩,⟨3,0,true,some .internalNl,some 5,none,true,true,0⟩],[⟨2,0,true,some (.own 9),some 5,none,true,true,0⟩,⟨3,0,true,some (.own 9),some 5,none,true,true,0⟩,⟨3,0,true,some .internalNl,some 5,none,false,true,0⟩,⟨3,0,true,some .internalNl,some 5,none,true,true,0⟩],[⟨2,0,true,some (.own 9),some 5,none,false,true,0⟩],[⟨2,0,false,some (.own 9),some 5,none,false,true,0⟩],[⟨3,0,true,some (.own 9),some 5,none,true,true,0⟩,⟨3,0,true,some .internalNl,some 5,none,false,true,0⟩,⟨3,0,true,some .internalNl,some 5,none,true,true,0⟩],[⟨3,0,true,some .internalNl,some 5,none,false,true,0⟩],[⟨3,0,true,some (.own 9),some 5,none,true,true,0⟩,⟨3,0,true,some .internalNl,some 5,none,true,true,0⟩],[⟨3,0,true,some (.own 9),some 5,none,true,true,0⟩,⟨3,0,true,some .internalNl,some 5,none,false,true,0⟩,⟨3,0,true,some .internalNl,some 5,none,true,true,0⟩],[⟨3,0,true,some .internalNl,some 5,none,false,true,0⟩],[⟨3,0,true,some (.own 9),some 5,none,true,true,0⟩,⟨3,0,true,some .internalNl,some 5,none,true,true,0⟩],[⟨3,0,true,some (.own 9),some 5,none,false,true,0⟩,⟨3,0,true,some .internalNl,some 5,none,false,true,0⟩],[⟨3,0,true,some (.own 9),some 5,none,false,true,0⟩,⟨3,0,true,some .internalNl,some 5,none,false,true,0⟩],[⟨3,0,true,some (.own 9),some 5,none,false,true,0⟩,⟨3,0,true,some .internalNl,some 5,none,false,true,0⟩],[⟨3,0,true,some (.own 9),some 5,none,false,true,0⟩,⟨3,0,true,some .internalNl,some 5,none,false,true,0⟩],[⟨3,0,true,some (.own 9),some 5,none,false,true,0⟩,⟨3,0,true,some .internalNl,some 5,none,false,true,0⟩],[⟨3,0,true,some (.own 9),some 5,none,false,true,0⟩,⟨3,0,true,some .internalNl,some 5,none,false,true,0⟩],[⟨3,0,true,some (.own 9),some 5,none,false,true,0⟩,⟨3,0,true,some .internalNl,some 5,none,false,true,0⟩],[⟨3,0,false,some (.own 9),some 5,none,false,true,0⟩],[⟨3,0,true,some (.own 9),some 5,none,false,true,0⟩,⟨3,0,true,some .internalNl,some 5,none,false,true,0⟩],[⟨3,0,true,some .internalNl,some 5,none,false,true,0⟩],[⟨3,0,false,some (.own 9),some 5,none,false,true,0⟩],[⟨3,0,false,some (.own 9),some 5,none,false,true,0⟩],[⟨3,0,false,some (.own 9),some 5,none,false,true,0⟩],[⟨3,0,false,some (.own 9),some 5,none,false,true,0⟩],[⟨3,0,false,some (.own 9),some 5,none,false,true,0⟩,⟨3,0,true,some .internalNl,some 5,none,false,true,0⟩],[⟨3,0,false,some .internalNl,some 5,none,false,true,0⟩,⟨3,0,true,some .internalNl,some 5,none,false,true,0⟩],[⟨3,0,false,some .internalNl,some 5,none,false,true,0⟩,⟨3,0,true,some .internalNl,some 5,none,false,true,0⟩],[⟨3,0,false,some (.own 9),some 5,none,false,true,0⟩,⟨3,0,true,some .internalNl,some 5,none,false,true,0⟩],[⟨3,0,false,some .internalNl,some 5,none,false,true,0⟩,⟨3,0,true,some .internalNl,some 5,none,false,true,0⟩],[⟨3,0,false,some .internalNl,some 5,none,false,true,0⟩,⟨3,0,true,some .internalNl,some 5,none,false,true,0⟩],[⟨3,0,true,some .internalNl,some 5,none,false,true,0⟩]]
theorem vbAspx_line_closed3true : closed emb0_rows vbAspx_line_tab3true (EA.start vbAspx_M vbAspx_line 3) (EA.succ vbAspx_M vbAspx_line (3, true)) (EA.eofOk vbAspx_M vbAspx_line (3, true)) = true := by
  decide +kernel
def vbAspx_line_C3true : MCert vbAspx_M vbAspx_line (3, true) := ⟨emb0_D, vbAspx_line_tab3true, vbAspx_line_closed3true, (fun h => nomatch h)⟩
def vbAspx_line_tab4true : List (List EA) := [[⟨0,0,false,none,none,none,false,false,0⟩],[⟨1,0,false,some (.own 0),some 1,none,false,true,0⟩,⟨2,0,false,some (.own 0),some 1,none,false,true,0⟩,⟨3,0,false,some (.own 0),some 1,none,false,true,0⟩],[⟨1,0,false,some .newline,none,none,false,false,0⟩],[⟨1,0,false,some .newline,some 4,none,false,false,0⟩],[⟨1,0,true,some (.own 7),some 5,none,true,true,0⟩],[⟨1,0,true,some (.own 7),some 5,none,true,true,0⟩],[⟨1,0,false,some (.own 7),some 5,none,false,true,0⟩],[⟨1,0,false,some (.own 7),some 5,none,false,true,0⟩],[⟨2,0,true,some (.own 7),some 5,none,true,true,0⟩,⟨3,0,true,some (.own 7),some 5,none,true,true,0⟩,⟨3,0,true,some .internalNl,some 5,none,true,true,0⟩],[⟨2,0,true,some (.own 7),some 5,none,true,true,0⟩,⟨3,0,true,some (.own 7),some 5,none,true,true,0⟩,⟨3,0,true,some .internalNl,some 5,none,false,true,0⟩,⟨3,0,true,some .internalNl,some 5,none,true,true,0⟩],[⟨2,0,true,some (.own 7),some 5,none,true,true,0⟩,⟨3,0,true,some (.own 7),some 5,none,true,true,0⟩,⟨3,0,true,some .internalNl,some 5,none,false,true,0⟩,⟨3,0,true,some .internalNl,some 5,none,true,true,0⟩],[⟨2,0,true,some (.own 7),some 5,none,true,true,0⟩,⟨3,0,true,some (.own 7),some 5,none,true,true,0⟩,⟨3,0,true,some .internalNl,some 5,none,true,true,0⟩],[⟨2,0,true,some (.own 7),some 5,none,true,true,0⟩,⟨3,0,true,some (.own 7),some 5,none,true,true,0⟩,⟨3,0,true,some .internalNl,some 5,none,false,true,0⟩,⟨3,0,true,some .internalNl,some 5,none,true,true,0⟩],[⟨2,0,true,some (.own 7),some 5,none,true,true,0⟩,⟨3,0,true,some (.own 7),some 5,none,true,true,0⟩,⟨3,0,true,some .internalNl,some 5,none,false,true,0⟩,⟨3,0,true,some .internalNl,some 5,none,true,true,0⟩],[⟨2,0,false,some (.own 7),some 5,none,false,true,0⟩],[⟨2,0,true,some (.own 7),some 5,none,false,true,0⟩],[⟨2,0,true,some (.own 7),some 2,none,false,true,0⟩],[⟨2,0,false,some (.own 7),some 5,none,false,true,0⟩],[⟨3,0,true,some (.own 7),some 5,none,true,true,0⟩,⟨3,0,true,some .internalNl,some 5,none,true,true,0⟩],[⟨3,0,true,some (.own 7),some 5,none,true,true,0⟩,⟨3,0,true,some .internalNl,some 5,none,false,true,0⟩,⟨3,0,true,some .internalNl,some 5,none,true,true,0⟩],[⟨3,0,true,some (.own 7),some 5,none,true,true,0⟩,⟨3,0,true,some .internalNl,some 5,none,false,true,0⟩,⟨3,0,true,some .internalNl,some 5,none,true,true,0⟩],[⟨3,0,true,some (.own 7),some 5,none,true,true,0⟩,⟨3,0,true,some .internalNl,some 5,none,false,true,0⟩,⟨3,0,true,some .internalNl,some 5,none,true,true,0⟩],[⟨3,0,true,some (.own 7),some 5,none,true,true,0⟩,⟨3,0,true,some .internalNl,some 5,none,false,true,0⟩,⟨3,0,true,some .internalNl,some 5,none,true,true,0⟩],[⟨3,0,true,some (.own 7),some 5,none,true,true,0⟩,⟨3,0,true,some .internalNl,some 5,none,true,true,0⟩],[⟨3,0,true,some (.own 7),some 5,none,true,true,0⟩,⟨3,0,true,some .internalNl,some 5,none,false,true,0⟩,⟨3,0,true,some .internalNl,some 5,none,true,true,0⟩],[⟨3,0,true,some (.own 7),some 5,none,true,true,0⟩,⟨3,0,true,some .internalNl,some 5,none,false,true,0⟩,⟨3,0,true,some .internalNl,some 5,none,true,true,0⟩],[⟨3,0,true,some (.own 7),some 5,none,true,true,0⟩,⟨3,0,true,some .internalNl,some 5,none,false,true,0⟩,⟨3,0,true,some .internalNl,some 5,none,true,true,0⟩],[⟨3,0,true,some (.own 7),some 5,none,true,true,0⟩,⟨3,0,true,some .internalNl,some 5,none,false,true,0⟩,⟨3,0,true,some .internalNl,some 5,none,true,true,0⟩],[⟨3,0,false,some (.own 7),some 5,none,false,true,0⟩],[⟨3,0,false,some (.own 7),some 5,none,false,true,0⟩],[⟨3,0,true,some (.own 7),some 5,none,false,true,0⟩,⟨3,0,true,some .internalNl,some 5,none,false,true,0⟩],[⟨3,0,true,some (.own 7),some 5,none,false,true,0⟩,⟨3,0,true,some .internalNl,some 5,none,false,true,0⟩],[⟨3,0,true,some (.own 7),some 5,none,false,true,0⟩,⟨3,0,true,some .internalNl,some 5,none,false,true,0⟩],[⟨3,0,true,some (.own 7),some 5,none,false,true,0⟩,⟨3,0,true,some .internalNl,some 5,none,false,true,0⟩],[⟨3,0,true,some (.own 7),some 5,none,false,true,0⟩,⟨3,0,true,some .internalNl,some 5,none,false,true,0⟩],[⟨3,0,true,some (.own 7),some 5,none,false,true,0⟩,⟨3,0,true,some .internalNl,some 5,none,false,true,0⟩],[⟨3,0,true,some (.own 7),some 5,none,false,true,0⟩,⟨3,0,true,some .internalNl,some 5,none,false,true,0⟩],[⟨3,0,true,some (.own 7),some 2,none,false,true,0⟩],[⟨3,0,false,some (.own 7),some 5,none,false,true,0⟩],[⟨3,0,true,some (.own 7),some 5,none,true,true,0⟩,⟨3,0,true,some .internalNl,some 5,none,false,true,0⟩,⟨3,0,true,some .internalNl,some 5,none,true,true,0⟩],[⟨3,0,true,some .internalNl,some 5,none,true,true,0⟩],[⟨3,0,true,some (.own 7),some 5,none,true,true,0⟩,⟨3,0,true,some .internalNl,some 5,none,false,true,0⟩,⟨3,0,true,some .internalNl,some 5,none,true,true,0⟩],[⟨3,0,true,some .internalNl,some 5,none,true,true,0⟩],[⟨3,0,false,some (.own 7),some 5,none,false,true,0⟩],[⟨3,0,true,some (.own 7),some 5,none,false,true,0⟩,⟨3,0,true,some .internalNl,some 5,none,false,true,0⟩],[⟨3,0,true,some .internalNl,some 5,none,false,true,0⟩],[⟨3,0,false,some (.own 7),some 5,none,false,true,0⟩],[⟨3,0,false,some (.own 7),some 5,none,false,true,0⟩],[⟨3,0,false,some (.own 7),some 5,none,false,true,0⟩],[⟨3,0,false,some (.own 7),some 5,none,false,true,0⟩],[⟨3,0,false,some (.own 7),some 5,none,false,true,0⟩],[⟨3,0,false,some (.own 7),some 5,none,false,true,0⟩,⟨3,0,true,some .internalNl,some 5,none,false,true,0⟩],[⟨3,0,false,some .internalNl,some 5,none,false,true,0⟩,⟨3,0,true,some .internalNl,some 5,none,false,true,0⟩],[⟨3,0,false,some .internalNl,some 5,none,false,true,0⟩,⟨3,0,true,some .internalNl,some 5,none,false,true,0⟩],[⟨3,0,false,some (.own 7),some 5,none,false,true,0⟩,⟨3,0,true,some .internalNl,some 5,none,false,true,0⟩],[⟨3,0,false,some .internalNl,some 5,none,false,true,0⟩,⟨3,0,true,some .internalNl,some 5,none,false,true,0⟩],[⟨3,0,false,some .internalNl,some 5,none,false,true,0⟩,⟨3,0,true,some .internalNl,some 5,none,false,true,0⟩],[⟨3,0,true,some .internalNl,some 5,none,false,true,0⟩]]
theorem vbAspx_line_closed4true : closed emb1_rows vbAspx_line_tab4true (EA.start vbAspx_M vbAspx_line 4) (EA.succ vbAspx_M vbAspx_line (4, true)) (EA.eofOk vbAspx_M vbAspx_line (4, true)) = true := by
  decide +kernel
def vbAspx_line_C4true : MCert vbAspx_M vbAspx_line (4, true) := ⟨emb1_D, vbAspx_line_tab4true, vbAspx_line_closed4true, (fun h => nomatch h)⟩
def vbAspx_line_tab5true : List (List EA) := [[⟨0,0,false,none,none,none,false,false,0⟩],[⟨1,0,false,some (.own 0),some 1,none,false,true,0⟩,⟨2,0,false,some (.own 0),some 1,none,false,true,0⟩,⟨3,0,false,some (.own 0),some 1,none,false,true,0⟩],[⟨1,0,false,some .newline,none,none,false,false,0⟩],[⟨1,0,false,some .newline,some 4,none,false,false,0⟩],[⟨1,0,true,some (.own 3),some 5,none,true,true,0⟩],[⟨1,0,false,some (.own 3),some 5,none,false,true,0⟩],[⟨1,0,true,some (.own 3),some 2,none,false,true,0⟩],[⟨1,0,false,some (.own 3),some 5,none,false,true,0⟩],[⟨1,0,false,some (.own 3),some 5,none,false,true,0⟩],[⟨2,0,true,some (.own 3),some 5,none,true,true,0⟩,⟨3,0,true,some (.own 3),some 5,none,true,true,0⟩],[⟨2,0,true,some (.own 3),some 5,none,true,true,0⟩,⟨3,0,true,some (.own 3),some 5,none,true,true,0⟩],[⟨2,0,true,some (.own 3),some 2,none,false,true,0⟩,⟨3,0,true,some (.own 3),some 2,none,false,true,0⟩],[⟨2,0,false,some (.own 3),some 5,none,false,true,0⟩],[⟨2,0,false,some (.own 3),some 5,none,false,true,0⟩],[⟨3,0,true,some (.own 3),some 5,none,true,true,0⟩],[⟨3,0,false,some (.own 3),some 5,none,false,true,0⟩],[⟨3,0,true,some (.own 3),some 2,none,false,true,0⟩],[⟨3,0,false,some (.own 3),some 5,none,false,true,0⟩],[⟨3,0,false,some (.own 3),some 5,none,false,true,0⟩],[⟨3,0,false,some (.own 3),some 5,none,false,true,0⟩],[⟨3,0,false,some (.own 3),some 5,none,false,true,0⟩],[⟨3,0,false,some (.own 3),some 5,none,false,true,0⟩],[⟨3,0,false,some (.own 3),some 5,none,false,true,0⟩,⟨3,0,true,some .internalNl,some 5,none,false,true,0⟩],[⟨3,0,false,some .internalNl,some 5,none,false,true,0⟩,⟨3,0,true,some .internalNl,some 5,none,false,true,0⟩],[⟨3,0,false,some .internalNl,some 5,none,false,true,0⟩,⟨3,0,true,some .internalNl,some 5,none,false,true,0⟩],[⟨3,0,false,some (.own 3),some 5,none,false,true,0⟩,⟨3,0,true,some .internalNl,some 5,none,false,true,0⟩],[⟨3,0,false,some .internalNl,some 5,none,false,true,0⟩,⟨3,0,true,some .internalNl,some 5,none,false,true,0⟩],[⟨3,0,false,some .internalNl,some 5,none,false,true,0⟩,⟨3,0,true,some .internalNl,some 5,none,false,true,0⟩],[⟨3,0,true,some .internalNl,some 5,none,false,true,0⟩]]
theorem vbAspx_line_closed5true : closed emb52_rows vbAspx_line_tab5true (EA.start vbAspx_M vbAspx_line 5) (EA.succ vbAspx_M vbAspx_line (5, true)) (EA.eofOk vbAspx_M vbAspx_line (5, true)) = true := by
  decide +kernel
def vbAspx_line_C5true : MCert vbAspx_M vbAspx_line (5, true) := ⟨emb52_D, vbAspx_line_tab5true, vbAspx_line_closed5true, (fun h => nomatch h)⟩
def vbAspx_line_tab0false : List (List EA) := [[⟨0,0,true,none,none,none,false,false,0⟩],[⟨0,0,true,none,none,none,false,false,0⟩,⟨0,0,true,some .internalNl,none,none,false,true,0⟩],[⟨0,0,true,none,none,none,false,false,0⟩,⟨0,0,true,some .internalNl,none,none,false,true,0⟩],[⟨0,0,true,none,none,none,false,false,0⟩,⟨0,0,true,some .internalNl,none,none,false,true,0⟩],[⟨0,0,true,none,none,none,false,false,0⟩,⟨0,0,true,some .internalNl,none,none,false,true,0⟩],[⟨0,0,true,none,none,none,false,false,0⟩,⟨0,0,true,some .internalNl,none,none,false,true,0⟩],[⟨0,0,true,none,none,none,false,false,0⟩,⟨0,0,true,some .internalNl,none,none,false,true,0⟩],[⟨0,0,true,none,none,none,false,false,0⟩,⟨0,0,true,some .internalNl,none,none,false,true,0⟩],[⟨0,0,true,none,none,none,false,false,0⟩,⟨0,0,true,some .internalNl,none,none,false,true,0⟩],[⟨0,0,true,none,none,none,false,false,0⟩,⟨0,0,true,some .internalNl,none,none,false,true,0⟩],[⟨0,0,true,some .internalNl,none,none,false,true,0⟩],[⟨0,0,true,none,none,none,false,false,0⟩,⟨0,0,true,some .internalNl,none,none,false,true,0⟩],[⟨0,0,true,none,none,none,false,false,0⟩,⟨0,0,true,some .internalNl,none,none,false,true,0⟩],[⟨0,0,true,none,none,none,false,false,0⟩,⟨0,0,true,some .internalNl,none,none,false,true,0⟩],[⟨0,0,true,none,none,none,false,false,0⟩,⟨0,0,true,some .internalNl,none,none,false,true,0⟩],[⟨0,0,true,none,none,none,false,false,0⟩,⟨0,0,true,some .internalNl,none,none,false,true,0⟩],[⟨0,0,true,none,none,none,false,false,0⟩,⟨0,0,true,some .internalNl,none,none,false,true,0⟩],[⟨0,0,true,none,none,none,false,false,0⟩,⟨0,0,true,some .internalNl,none,none,false,true,0⟩],[⟨0,0,true,none,none,none,false,false,0⟩,⟨0,0,true,some .internalNl,none,none,false,true,0⟩],[⟨0,0,false,none,none,none,false,false,0⟩],[⟨0,0,true,none,none,none,false,false,0⟩,⟨0,0,true,some .internalNl,none,none,false,true,0⟩],[⟨0,0,true,none,none,none,false,false,0⟩,⟨0,0,true,some .internalNl,none,none,false,true,0⟩],[⟨0,0,true,none,none,none,false,false,0⟩,⟨0,0,true,some .internalNl,none,none,false,true,0⟩],[⟨0,0,true,none,none,none,false,false,0⟩,⟨0,0,true,some .internalNl,none,none,false,true,0⟩,⟨0,0,false,none,none,none,false,false,0⟩],[⟨0,0,true,none,none,none,false,false,0⟩,⟨0,0,true,some .internalNl,none,none,false,true,0⟩,⟨0,0,false,none,none,none,false,false,0⟩],[⟨0,0,true,none,none,none,false,false,0⟩,⟨0,0,true,some .internalNl,none,none,false,true,0⟩,⟨0,0,false,none,none,none,false,false,0⟩],[⟨0,0,true,none,none,none,false,false,0⟩,⟨0,0,true,some .internalNl,none,none,false,true,0⟩,⟨0,0,false,none,none,none,false,false,0⟩],[⟨0,0,true,none,none,none,false,false,0⟩,⟨0,0,true,some .internalNl,none,none,false,true,0⟩,⟨0,0,false,none,none,none,false,false,0⟩],[⟨0,0,true,none,none,none,false,false,0⟩,⟨0,0,true,some .internalNl,none,none,false,true,0⟩,⟨0,0,false,none,none,none,false,false,0⟩],[⟨0,0,true,none,none,none,false,false,0⟩,⟨0,0,true,some .internalNl,none,none,false,true,0⟩,⟨0,0,false,none,none,none,false,false,0⟩],[⟨0,0,true,none,none,none,false,false,0⟩,⟨0,0,true,some .internalNl,none,none,false,true,0⟩,⟨0,0,false,none,none,none,false,false,0⟩],[⟨0,0,true,none,none,none,false,false,0⟩,⟨0,0,true,some .internalNl,none,none,false,true,0⟩,⟨0,0,false,none,none,none,false,false,0⟩],[⟨0,0,true,none,none,none,false,false,0⟩],[⟨0,0,false,none,none,none,false,false,0⟩],[⟨0,0,false,none,none,none,false,false,0⟩],[⟨0,0,false,none,none,none,false,false,0⟩],[⟨0,0,false,none,none,none,false,false,0⟩],[⟨0,0,false,none,none,none,false,false,0⟩],[⟨0,0,false,none,none,none,false,false,0⟩],[⟨0,0,false,none,none,none,false,false,0⟩],[⟨0,0,false,none,none,none,false,false,0⟩],[⟨0,0,true,none,none,none,false,false,0⟩,⟨0,0,true,some .internalNl,none,none,false,true,0⟩,⟨0,0,false,none,none,none,false,false,0⟩],[⟨0,0,true,none,none,none,false,false,0⟩,⟨0,0,true,some .internalNl,none,none,false,true,0⟩],[⟨0,0,true,none,none,none,false,false,0⟩,⟨0,0,true,some .internalNl,none,none,false,true,0⟩,⟨0,0,false,none,none,none,false,false,0⟩],[⟨0,0,true,none,none,none,false,false,0⟩,⟨0,0,true,some .internalNl,none,none,false,true,0⟩,⟨0,0,false,none,none,none,false,false,0⟩],[⟨0,0,true,none,none,none,false,false,0⟩,⟨0,0,true,some .internalNl,none,none,false,true,0⟩,⟨0,0,false,none,none,none,false,false,0⟩],[⟨0,0,true,none,none,none,false,false,0⟩,⟨0,0,true,some .internalNl,none,none,false,true,0⟩,⟨0,0,false,none,none,none,false,false,0⟩],[⟨0,0,true,none,none,none,false,false,0⟩,⟨0,0,true,some .internalNl,none,none,false,true,0⟩,⟨0,0,false,none,none,none,false,false,0⟩],[⟨0,0,true,none,none,none,false,false,0⟩,⟨0,0,true,some .internalNl,none,none,false,true,0⟩,⟨0,0,false,none,none,none,false,false,0⟩],[⟨0,0,false,none,none,none,false,false,0⟩],[⟨0,0,true,none,none,none,false,false,0⟩,⟨0,0,true,some .internalNl,none,none,false,true,0⟩,⟨0,0,false,none,none,none,false,false,0⟩],[⟨0,0,true,none,none,none,false,false,0⟩,⟨0,0,true,some .internalNl,none,none,false,true,0⟩,⟨0,0,false,none,none,none,false,false,0⟩],[⟨0,0,true,none,none,none,false,false,0⟩],[⟨0,0,false,none,none,none,false,false,0⟩],[⟨0,0,false,none,none,none,false,false,0⟩],[⟨0,0,false,none,none,none,false,false,0⟩],[⟨0,0,false,none,none,none,false,false,0⟩],[⟨0,0,false,none,none,none,false,false,0⟩],[⟨0,0,false,none,none,none,false,false,0⟩],[⟨0,0,false,none,none,none,false,false,0⟩],[⟨0,0,false,none,none,none,false,false,0⟩]]
theorem vbAspx_line_closed0false : closed emb25_rows vbAspx_line_tab0false (EA.start vbAspx_M vbAspx_line 0) (EA.succ vbAspx_M vbAspx_line (0, false)) (EA.eofOk vbAspx_M vbAspx_line (0, false)) = true := by
  decide +kernel
def vbAspx_line_C0false : MCert vbAspx_M vbAspx_line (0, false) := ⟨emb25_D, vbAspx_line_tab0false, vbAspx_line_closed0false, (fun h => nomatch h)⟩
def vbAspx_line_tab1false : List (List EA) := [[⟨0,0,true,none,none,none,false,false,0⟩],[⟨0,0,true,none,none,none,true,false,0⟩,⟨0,0,true,some .internalNl,none,none,true,true,0⟩],[⟨0,0,true,none,none,none,false,false,0⟩,⟨0,0,true,none,none,none,true,false,0⟩,⟨0,0,true,some .internalNl,none,none,false,true,0⟩,⟨0,0,true,some .internalNl,none,none,true,true,0⟩],[⟨0,0,true,none,none,none,false,false,0⟩,⟨0,0,true,none,none,none,true,false,0⟩,⟨0,0,true,some .internalNl,none,none,false,true,0⟩,⟨0,0,true,some .internalNl,none,none,true,true,0⟩],[⟨0,0,true,none,none,none,false,false,0⟩,⟨0,0,true,none,none,none,true,false,0⟩,⟨0,0,true,some .internalNl,none,none,false,true,0⟩,⟨0,0,true,some .internalNl,none,none,true,true,0⟩],[⟨0,0,true,none,none,none,false,false,0⟩,⟨0,0,true,none,none,none,true,false,0⟩,⟨0,0,true,some .internalNl,none,none,false,true,0⟩,⟨0,0,true,some .internalNl,none,none,true,true,0⟩],[⟨0,0,true,none,none,none,false,false,0⟩,⟨0,0,true,none,none,none,true,false,0⟩,⟨0,0,true,some .internalNl,none,none,false,true,0⟩,⟨0,0,true,some .internalNl,none,none,true,true,0⟩],[⟨0,0,true,none,none,none,false,false,0⟩,⟨0,0,true,none,none,none,true,false,0⟩,⟨0,0,true,some .internalNl,none,none,false,true,0⟩,⟨0,0,true,some .internalNl,none,none,true,true,0⟩],[⟨0,0,true,none,none,none,false,false,0⟩,⟨0,0,true,none,none,none,true,false,0⟩,⟨0,0,true,some .internalNl,none,none,false,true,0⟩,⟨0,0,true,some .internalNl,none,none,true,true,0⟩],[⟨0,0,true,none,none,none,false,false,0⟩,⟨0,0,true,none,none,none,true,false,0⟩,⟨0,0,true,some .internalNl,none,none,false,true,0⟩,⟨0,0,true,some .internalNl,none,none,true,true,0⟩],[⟨0,0,true,some .internalNl,none,none,false,true,0⟩],[⟨0,0,true,none,none,none,true,false,0⟩,⟨0,0,true,some .internalNl,none,none,true,true,0⟩],[⟨0,0,true,none,none,none,false,false,0⟩,⟨0,0,true,none,none,none,true,false,0⟩,⟨0,0,true,some .internalNl,none,none,false,true,0⟩,⟨0,0,true,some .internalNl,none,none,true,true,0⟩],[⟨0,0,true,none,none,none,false,false,0⟩,⟨0,0,true,none,none,none,true,false,0⟩,⟨0,0,true,some .internalNl,none,none,false,true,0⟩,⟨0,0,true,some .internalNl,none,none,true,true,0⟩],[⟨0,0,true,none,none,none,false,false,0⟩,⟨0,0,true,none,none,none,true,false,0⟩,⟨0,0,true,some .internalNl,none,none,false,true,0⟩,⟨0,0,true,some .internalNl,none,none,true,true,0⟩],[⟨0,0,true,none,none,none,false,false,0⟩,⟨0,0,true,none,none,none,true,false,0⟩,⟨0,0,true,some .internalNl,none,none,false,true,0⟩,⟨0,0,true,some .internalNl,none,none,true,true,0⟩],[⟨0,0,true,none,none,none,false,false,0⟩,⟨0,0,true,none,none,none,true,false,0⟩,⟨0,0,true,some .internalNl,none,none,false,true,0⟩,⟨0,0,true,some .internalNl,none,none,true,true,0⟩],[⟨0,0,false,none,none,none,false,false,0⟩],[],[⟨0,0,true,none,none,none,false,false,0⟩,⟨0,0,true,none,none,none,true,false,0⟩,⟨0,0,true,some .internalNl,none,none,false,true,0⟩,⟨0,0,true,some .internalNl,none,none,true,true,0⟩],[⟨0,0,true,none,none,none,false,false,0⟩,⟨0,0,true,none,none,none,true,false,0⟩,⟨0,0,true,some .internalNl,none,none,false,true,0⟩,⟨0,0,true,some .internalNl,none,none,true,true,0⟩],[⟨0,0,true,none,none,none,true,false,0⟩,⟨0,0,true,some .internalNl,none,none,true,true,0⟩],[⟨0,0,true,none,none,none,true,false,0⟩,⟨0,0,true,some .internalNl,none,none,true,true,0⟩],[⟨0,0,true,none,none,none,true,false,0⟩,⟨0,0,true,none,none,none,false,false,0⟩,⟨0,0,true,some .internalNl,none,none,false,true,0⟩,⟨0,0,true,some .internalNl,none,none,true,true,0⟩,⟨0,0,false,none,none,none,false,false,0⟩],[⟨0,0,true,none,none,none,true,false,0⟩,⟨0,0,true,none,none,none,false,false,0⟩,⟨0,0,true,some .internalNl,none,none,false,true,0⟩,⟨0,0,true,some .internalNl,none,none,true,true,0⟩,⟨0,0,false,none,none,none,false,false,0⟩],[⟨0,0,true,none,none,none,true,false,0⟩,⟨0,0,true,none,none,none,false,false,0⟩,⟨0,0,true,some .internalNl,none,none,false,true,0⟩,⟨0,0,true,some .internalNl,none,none,true,true,0⟩,⟨0,0,false,none,none,none,false,false,0⟩],[⟨0,0,true,none,none,none,true,false,0⟩,⟨0,0,true,none,none,none,false,false,0⟩,⟨0,0,true,some .internalNl,none,none,false,true,0⟩,⟨0,0,true,some .internalNl,none,none,true,true,0⟩,⟨0,0,false,none,none,none,false,false,0⟩],[⟨0,0,true,none,none,none,true,false,0⟩,⟨0,0,true,none,none,none,false,false,0⟩,⟨0,0,true,some .internalNl,none,none,false,true,0⟩,⟨0,0,true,some .internalNl,none,none,true,true,0⟩,⟨0,0,false,none,none,none,false,false,0⟩],[],[⟨0,0,true,none,none,none,true,false,0⟩,⟨0,0,true,none,none,none,false,false,0⟩,⟨0,0,true,some .internalNl,none,none,false,true,0⟩,⟨0,0,true,some .internalNl,none,none,true,true,0⟩,⟨0,0,false,none,none,none,false,false,0⟩],[⟨0,0,true,none,none,none,true,false,0⟩,⟨0,0,true,none,none,none,false,false,0⟩,⟨0,0,true,some .internalNl,none,none,false,true,0⟩,⟨0,0,true,some .internalNl,none,none,true,true,0⟩,⟨0,0,false,none,none,none,false,false,0⟩],[⟨0,0,true,none,none,none,false,false,0⟩,⟨0,0,true,some .internalNl,none,none,false,true,0⟩,⟨0,0,true,none,none,none,true,false,0⟩,⟨0,0,false,none,none,none,false,false,0⟩,⟨0,0,true,some .internalNl,none,none,true,true,0⟩],[⟨0,0,true,none,none,none,true,false,0⟩],[⟨0,0,false,none,none,none,false,false,0⟩],[⟨0,0,false,none,none,none,false,false,0⟩],[⟨0,0,false,none,none,none,false,false,0⟩],[⟨0,0,false,none,none,none,false,false,0⟩],[⟨0,0,false,none,none,none,false,false,0⟩],[],[⟨0,0,false,none,none,none,false,false,0⟩],[⟨0,0,false,none,none,none,false,false,0⟩],[⟨0,0,true,none,none,none,true,false,0⟩,⟨0,0,true,some .internalNl,none,none,true,true,0⟩],[⟨0,0,true,none,none,none,false,false,0⟩,⟨0,0,true,none,none,none,true,false,0⟩,⟨0,0,true,some .internalNl,none,none,false,true,0⟩,⟨0,0,false,none,none,none,false,false,0⟩,⟨0,0,true,some .internalNl,none,none,true,true,0⟩],[⟨0,0,true,none,none,none,false,false,0⟩,⟨0,0,true,none,none,none,true,false,0⟩,⟨0,0,true,some .internalNl,none,none,false,true,0⟩,⟨0,0,false,none,none,none,false,false,0⟩,⟨0,0,true,some .internalNl,none,none,true,true,0⟩],[⟨0,0,true,none,none,none,false,false,0⟩,⟨0,0,true,none,none,none,true,false,0⟩,⟨0,0,true,some .internalNl,none,none,false,true,0⟩,⟨0,0,false,none,none,none,false,false,0⟩,⟨0,0,true,some .internalNl,none,none,true,true,0⟩],[⟨0,0,true,none,none,none,false,false,0⟩,⟨0,0,true,none,none,none,true,false,0⟩,⟨0,0,true,some .internalNl,none,none,false,true,0⟩,⟨0,0,false,none,none,none,false,false,0⟩,⟨0,0,true,some .internalNl,none,none,true,true,0⟩],[⟨0,0,true,none,none,none,false,false,0⟩,⟨0,0,true,none,none,none,true,false,0⟩,⟨0,0,true,some .internalNl,none,none,false,true,0⟩,⟨0,0,false,none,none,none,false,false,0⟩,⟨0,0,true,some .internalNl,none,none,true,true,0⟩],[⟨0,0,false,none,none,none,false,false,0⟩],[],[⟨0,0,true,none,none,none,false,false,0⟩,⟨0,0,true,none,none,none,true,false,0⟩,⟨0,0,true,some .internalNl,none,none,false,true,0⟩,⟨0,0,false,none,none,none,false,false,0⟩,⟨0,0,true,some .internalNl,none,none,true,true,0⟩],[⟨0,0,true,none,none,none,false,false,0⟩,⟨0,0,true,none,none,none,true,false,0⟩,⟨0,0,true,some .internalNl,none,none,false,true,0⟩,⟨0,0,false,none,none,none,false,false,0⟩,⟨0,0,true,some .internalNl,none,none,true,true,0⟩],[⟨0,0,true,none,none,none,true,false,0⟩,⟨0,0,true,some .internalNl,none,none,true,true,0⟩],[⟨0,0,true,none,none,none,true,false,0⟩,⟨0,0,true,some .internalNl,none,none,true,true,0⟩],[],[⟨0,0,true,none,none,none,true,false,0⟩,⟨0,0,true,some .internalNl,none,none,true,true,0⟩],[⟨0,0,true,none,none,none,true,false,0⟩,⟨0,0,true,some .internalNl,none,none,true,true,0⟩],[⟨0,0,true,none,none,none,true,false,0⟩],[⟨0,0,false,none,none,none,false,false,0⟩],[⟨0,0,false,none,none,none,false,false,0⟩],[⟨0,0,false,none,none,none,false,false,0⟩],[⟨0,0,false,none,none,none,false,false,0⟩],[⟨0,0,false,none,none,none,false,false,0⟩],[],[⟨0,0,false,none,none,none,false,false,0⟩],[⟨0,0,false,none,none,none,false,false,0⟩]]
theorem vbAspx_line_closed1false : closed emb26_rows vbAspx_line_tab1false (EA.start vbAspx_M vbAspx_line 1) (EA.succ vbAspx_M vbAspx_line (1, false)) (EA.eofOk vbAspx_M vbAspx_line (1, false)) = true := by
  decide +kernel
def vbAspx_line_C1false : MCert vbAspx_M vbAspx_line (1, false) := ⟨emb26_D, vbAspx_line_tab1false, vbAspx_line_closed1false, (fun h => nomatch h)⟩
def vbAspx_line_tab2false : List (List EA) := [[⟨0,0,true,none,none,none,false,false,0⟩],[⟨0,0,true,none,none,none,true,false,0⟩,⟨0,0,true,some .internalNl,none,none,true,true,0⟩],[⟨0,0,true,none,none,none,false,false,0⟩,⟨0,0,true,none,none,none,true,false,0⟩,⟨0,0,true,some .internalNl,none,none,false,true,0⟩,⟨0,0,true,some .internalNl,none,none,true,true,0⟩],[⟨0,0,true,none,none,none,false,false,0⟩,⟨0,0,true,none,none,none,true,false,0⟩,⟨0,0,true,some .internalNl,none,none,false,true,0⟩,⟨0,0,true,some .internalNl,none,none,true,true,0⟩],[⟨0,0,true,none,none,none,false,false,0⟩,⟨0,0,true,none,none,none,true,false,0⟩,⟨0,0,true,some .internalNl,none,none,false,true,0⟩,⟨0,0,true,some .internalNl,none,none,true,true,0⟩],[⟨0,0,true,none,none,none,false,false,0⟩,⟨0,0,true,none,none,none,true,false,0⟩,⟨0,0,true,some .internalNl,none,none,false,true,0⟩,⟨0,0,true,some .internalNl,none,none,true,true,0⟩],[⟨0,0,true,none,none,none,false,false,0⟩,⟨0,0,true,none,none,none,true,false,0⟩,⟨0,0,true,some .internalNl,none,none,false,true,0⟩,⟨0,0,true,some .internalNl,none,none,true,true,0⟩],[⟨0,0,true,none,none,none,false,false,0⟩,⟨0,0,true,none,none,none,true,false,0⟩,⟨0,0,true,some .internalNl,none,none,false,true,0⟩,⟨0,0,true,some .internalNl,none,none,true,true,0⟩],[⟨0,0,true,none,none,none,false,false,0⟩,⟨0,0,true,none,none,none,true,false,0⟩,⟨0,0,true,some .internalNl,none,none,false,true,0⟩,⟨0,0,true,some .internalNl,none,none,true,true,0⟩],[⟨0,0,true,none,none,none,false,false,0⟩,⟨0,0,true,none,none,none,true,false,0⟩,⟨0,0,true,some .internalNl,none,none,false,true,0⟩,⟨0,0,true,some .internalNl,none,none,true,true,0⟩],[⟨0,0,true,some .internalNl,none,none,false,true,0⟩],[⟨0,0,true,none,none,none,true,false,0⟩,⟨0,0,true,some .internalNl,none,none,true,true,0⟩],[⟨0,0,true,none,none,none,false,false,0⟩,⟨0,0,true,none,none,none,true,false,0⟩,⟨0,0,true,some .internalNl,none,none,false,true,0⟩,⟨0,0,true,some .internalNl,none,none,true,true,0⟩],[⟨0,0,true,none,none,none,false,false,0⟩,⟨0,0,true,none,none,none,true,false,0⟩,⟨0,0,true,some .internalNl,none,none,false,true,0⟩,⟨0,0,true,some .internalNl,none,none,true,true,0⟩],[⟨0,0,true,none,none,none,false,false,0⟩,⟨0,0,true,none,none,none,true,false,0⟩,⟨0,0,true,some .internalNl,none,none,false,true,0⟩,⟨0,0,true,some .internalNl,none,none,true,true,0⟩],[⟨0,0,true,none,none,none,false,false,0⟩,⟨0,0,true,none,none,none,true,false,0⟩,⟨0,0,true,some .internalNl,none,none,false,true,0⟩,⟨0,0,true,some .internalNl,none,none,true,true,0⟩],[⟨0,0,true,none,none,none,false,false,0⟩,⟨0,0,true,none,none,none,true,false,0⟩,⟨0,0,true,some .internalNl,none,none,false,true,0⟩,⟨0,0,true,some .internalNl,none,none,true,true,0⟩],[],[⟨0,0,false,none,none,none,false,false,0⟩],[⟨0,0,true,none,none,none,false,false,0⟩,⟨0,0,true,none,none,none,true,false,0⟩,⟨0,0,true,some .internalNl,none,none,false,true,0⟩,⟨0,0,true,some .internalNl,none,none,true,true,0⟩],[⟨0,0,true,none,none,none,false,false,0⟩,⟨0,0,true,none,none,none,true,false,0⟩,⟨0,0,true,some .internalNl,none,none,false,true,0⟩,⟨0,0,true,some .internalNl,none,none,true,true,0⟩],[⟨0,0,true,none,none,none,true,false,0⟩,⟨0,0,true,some .internalNl,none,none,true,true,0⟩],[⟨0,0,true,none,none,none,true,false,0⟩,⟨0,0,true,some .internalNl,none,none,true,true,0⟩],[⟨0,0,true,none,none,none,true,false,0⟩,⟨0,0,true,none,none,none,false,false,0⟩,⟨0,0,true,some .internalNl,none,none,false,true,0⟩,⟨0,0,true,some .internalNl,none,none,true,true,0⟩,⟨0,0,false,none,none,none,false,false,0⟩],[⟨0,0,true,none,none,none,true,false,0⟩,⟨0,0,true,none,none,none,false,false,0⟩,⟨0,0,true,some .internalNl,none,none,false,true,0⟩,⟨0,0,true,some .internalNl,none,none,true,true,0⟩,⟨0,0,false,none,none,none,false,false,0⟩],[⟨0,0,true,none,none,none,true,false,0⟩,⟨0,0,true,none,none,none,false,false,0⟩,⟨0,0,true,some .internalNl,none,none,false,true,0⟩,⟨0,0,true,some .internalNl,none,none,true,true,0⟩,⟨0,0,false,none,none,none,false,false,0⟩],[⟨0,0,true,none,none,none,true,false,0⟩,⟨0,0,true,none,none,none,false,false,0⟩,⟨0,0,true,some .internalNl,none,none,false,true,0⟩,⟨0,0,true,some .internalNl,none,none,true,true,0⟩,⟨0,0,false,none,none,none,false,false,0⟩],[⟨0,0,true,none,none,none,true,false,0⟩,⟨0,0,true,none,none,none,false,false,0⟩,⟨0,0,true,some .internalNl,none,none,false,true,0⟩,⟨0,0,true,some .internalNl,none,none,true,true,0⟩,⟨0,0,false,none,none,none,false,false,0⟩],[],[⟨0,0,true,none,none,none,true,false,0⟩,⟨0,0,true,none,none,none,false,false,0⟩,⟨0,0,true,some .internalNl,none,none,false,true,0⟩,⟨0,0,true,some .internalNl,none,none,true,true,0⟩,⟨0,0,false,none,none,none,false,false,0⟩],[⟨0,0,true,none,none,none,true,false,0⟩,⟨0,0,true,none,none,none,false,false,0⟩,⟨0,0,true,some .internalNl,none,none,false,true,0⟩,⟨0,0,true,some .internalNl,none,none,true,true,0⟩,⟨0,0,false,none,none,none,false,false,0⟩],[⟨0,0,true,none,none,none,false,false,0⟩,⟨0,0,true,some .internalNl,none,none,false,true,0⟩,⟨0,0,true,none,none,none,true,false,0⟩,⟨0,0,false,none,none,none,false,false,0⟩,⟨0,0,true,some .internalNl,none,none,true,true,0⟩],[⟨0,0,true,none,none,none,true,false,0⟩],[⟨0,0,false,none,none,none,false,false,0⟩],[⟨0,0,false,none,none,none,false,false,0⟩],[⟨0,0,false,none,none,none,false,false,0⟩],[⟨0,0,false,none,none,none,false,false,0⟩],[⟨0,0,false,none,none,none,false,false,0⟩],[],[⟨0,0,false,none,none,none,false,false,0⟩],[⟨0,0,false,none,none,none,false,false,0⟩],[⟨0,0,true,none,none,none,true,false,0⟩,⟨0,0,true,some .internalNl,none,none,true,true,0⟩],[⟨0,0,true,none,none,none,false,false,0⟩,⟨0,0,true,none,none,none,true,false,0⟩,⟨0,0,true,some .internalNl,none,none,false,true,0⟩,⟨0,0,false,none,none,none,false,false,0⟩,⟨0,0,true,some .internalNl,none,none,true,true,0⟩],[⟨0,0,true,none,none,none,false,false,0⟩,⟨0,0,true,none,none,none,true,false,0⟩,⟨0,0,true,some .internalNl,none,none,false,true,0⟩,⟨0,0,false,none,none,none,false,false,0⟩,⟨0,0,true,some .internalNl,none,none,true,true,0⟩],[⟨0,0,true,none,none,none,false,false,0⟩,⟨0,0,true,none,none,none,true,false,0⟩,⟨0,0,true,some .internalNl,none,none,false,true,0⟩,⟨0,0,false,none,none,none,false,false,0⟩,⟨0,0,true,some .internalNl,none,none,true,true,0⟩],[⟨0,0,true,none,none,none,false,false,0⟩,⟨0,0,true,none,none,none,true,false,0⟩,⟨0,0,true,some .internalNl,none,none,false,true,0⟩,⟨0,0,false,none,none,none,false,false,0⟩,⟨0,0,true,some .internalNl,none,none,true,true,0⟩],[⟨0,0,true,none,none,none,false,false,0⟩,⟨0,0,true,none,none,none,true,false,0⟩,⟨0,0,true,some .internalNl,none,none,false,true,0⟩,⟨0,0,false,none,none,none,false,false,0⟩,⟨0,0,true,some .internalNl,none,none,true,true,0⟩],[],[⟨0,0,false,none,none,none,false,false,0⟩],[⟨0,0,true,none,none,none,false,false,0⟩,⟨0,0,true,none,none,none,true,false,0⟩,⟨0,0,true,some .internalNl,none,none,false,true,0⟩,⟨0,0,false,none,none,none,false,false,0⟩,⟨0,0,true,some .internalNl,none,none,true,true,0⟩],[⟨0,0,true,none,none,none,false,false,0⟩,⟨0,0,true,none,none,none,true,false,0⟩,⟨0,0,true,some .internalNl,none,none,false,true,0⟩,⟨0,0,false,none,none,none,false,false,0⟩,⟨0,0,true,some .internalNl,none,none,true,true,0⟩],[⟨0,0,true,none,none,none,true,false,0⟩,⟨0,0,true,some .internalNl,none,none,true,true,0⟩],[⟨0,0,true,none,none,none,true,false,0⟩,⟨0,0,true,some .internalNl,none,none,true,true,0⟩],[],[⟨0,0,true,none,none,none,true,false,0⟩,⟨0,0,true,some .internalNl,none,none,true,true,0⟩],[⟨0,0,true,none,none,none,true,false,0⟩,⟨0,0,true,some .internalNl,none,none,true,true,0⟩],[⟨0,0,true,none,none,none,true,false,0⟩],[⟨0,0,false,none,none,none,false,false,0⟩],[⟨0,0,false,none,none,none,false,false,0⟩],[⟨0,0,false,none,none,none,false,false,0⟩],[⟨0,0,false,none,none,none,false,false,0⟩],[⟨0,0,false,none,none,none,false,false,0⟩],[],[⟨0,0,false,none,none,none,false,false,0⟩],[⟨0,0,false,none,none,none,false,false,0⟩]]
theorem vbAspx_line_closed2false : closed emb27_rows vbAspx_line_tab2false (EA.start vbAspx_M vbAspx_line 2) (EA.succ vbAspx_M vbAspx_line (2, false)) (EA.eofOk vbAspx_M vbAspx_line (2, false)) = true := by
  decide +kernel
def vbAspx_line_C2false : MCert vbAspx_M vbAspx_line (2, false) := ⟨emb27_D, vbAspx_line_tab2false, vbAspx_line_closed2false, (fun h => nomatch h)⟩
theorem vbAspx_line_certs : ∀ u ∈ vbAspx_line.use, Nonempty (MCert vbAspx_M vbAspx_line u) :=
  (List.forall_mem_cons.mpr ⟨⟨vbAspx_line_C6false⟩,
  (List.forall_mem_cons.mpr ⟨⟨vbAspx_line_C3true⟩,
  (List.forall_mem_cons.mpr ⟨⟨vbAspx_line_C4true⟩,
  (List.forall_mem_cons.mpr ⟨⟨vbAspx_line_C5true⟩,
  (List.forall_mem_cons.mpr ⟨⟨vbAspx_line_C0false⟩,
  (List.forall_mem_cons.mpr ⟨⟨vbAspx_line_C1false⟩,
  (List.forall_mem_cons.mpr ⟨⟨vbAspx_line_C2false⟩,
  (fun _ h => nomatch h)⟩)⟩)⟩)⟩)⟩)⟩)⟩)

def vbAspx_entity : EOpt := ⟨false, false, false, [(10,false),(7,true),(8,true),(9,true)], 4⟩
def vbAspx_entity_tab10false : List (List EA) := [[⟨0,0,false,none,none,none,false,false,0⟩],[⟨1,0,false,some (.own 0),some 3,none,false,true,0⟩,⟨2,0,false,some (.own 0),some 3,none,false,true,0⟩,⟨3,0,false,some (.own 0),some 3,none,false,true,0⟩],[⟨1,0,false,some (.own 1),some 5,none,false,true,0⟩],[⟨2,0,false,some (.own 1),some 5,none,false,true,0⟩],[⟨2,0,false,some (.own 1),some 5,none,false,true,0⟩],[⟨3,0,false,some (.own 1),some 5,none,false,true,0⟩],[⟨3,0,false,some (.own 1),some 5,none,false,true,0⟩],[⟨3,0,false,some (.own 1),some 5,none,false,true,0⟩],[⟨3,0,false,some (.own 1),some 5,none,false,true,0⟩],[⟨3,0,false,some (.own 1),some 5,none,false,true,0⟩],[⟨3,0,false,some (.own 1),some 5,none,false,true,0⟩],[⟨3,0,false,some (.own 1),some 5,none,false,true,0⟩],[⟨3,0,false,some (.own 1),some 5,none,false,true,0⟩],[⟨3,0,false,some (.own 1),some 5,none,false,true,0⟩],[⟨3,0,false,some (.own 1),some 5,none,false,true,0⟩],[⟨3,0,false,some (.own 1),some 5,none,false,true,0⟩],[⟨3,0,false,some (.own 1),some 5,none,false,true,0⟩],[⟨3,0,false,some (.own 1),some 5,none,false,true,0⟩],[⟨3,0,false,some (.own 1),some 5,none,false,true,0⟩],[⟨3,0,false,some (.own 1),some 5,none,false,true,0⟩],[⟨3,0,false,some (.own 1),some 5,none,false,true,0⟩],[⟨3,0,false,some (.own 1),some 5,none,false,true,0⟩],[⟨3,0,false,some (.own 1),some 5,none,false,true,0⟩],[⟨3,0,false,some (.own 1),some 5,none,false,true,0⟩],[⟨3,0,false,some (.own 1),some 5,none,false,true,0⟩],[⟨3,0,false,some (.own 1),some 5,none,false,true,0⟩],[⟨3,0,false,some (.own 1),some 5,none,false,true,0⟩],[⟨3,0,false,some (.own 1),some 5,none,false,true,0⟩],[⟨3,0,false,some (.own 1),some 5,none,false,true,0⟩],[⟨3,0,false,some (.own 1),some 5,none,false,true,0⟩],[⟨3,0,false,some (.own 1),some 5,none,false,true,0⟩],[⟨3,0,false,some (.own 1),some 5,none,false,true,0⟩],[⟨3,0,false,some (.own 1),some 5,none,false,true,0⟩],[⟨3,0,false,some (.own 1),some 5,none,false,true,0⟩],[⟨3,0,false,some (.own 1),some 5,none,false,true,0⟩],[⟨3,0,false,some (.own 1),some 5,none,false,true,0⟩],[⟨3,0,false,some (.own 1),some 5,none,false,true,0⟩],[⟨3,0,false,some (.own 1),some 5,none,false,true,0⟩],[⟨3,0,false,some (.own 1),some 5,none,false,true,0⟩],[⟨3,0,false,some (.own 1),some 5,none,false,true,0⟩],[⟨3,0,false,some (.own 1),some 5,none,false,true,0⟩],[⟨3,0,false,some (.own 1),some 5,none,false,true,0⟩],[⟨3,0,false,some (.own 1),some 5,none,false,true,0⟩],[⟨3,0,false,some (.own 1),some 5,none,false,true,0⟩],[⟨3,0,false,some (.own 1),some 5,none,false,true,0⟩],[⟨3,0,false,some (.own 1),some 5,none,false,true,0⟩],[⟨3,0,false,some (.own 1),some 5,none,false,true,0⟩],[⟨3,0,false,some (.own 1),some 5,none,false,true,0⟩],[⟨3,0,false,some (.own 1),some 5,none,false,true,0⟩],[⟨3,0,false,some (.own 1),some 5,none,false,true,0⟩],[⟨3,0,false,some (.own 1),some 5,none,false,true,0⟩],[⟨3,0,false,some (.own 1),some 5,none,false,true,0⟩],[⟨3,0,false,some (.own 1),some 5,none,false,true,0⟩],[⟨3,0,false,some (.own 1),some 5,none,false,true,0⟩],[⟨3,0,false,some (.own 1),some 5,none,false,true,0⟩],[⟨3,0,false,some (.own 1),some 5,none,false,true,0⟩],[⟨3,0,false,some (.own 1),some 5,none,false,true,0⟩],[⟨3,0,false,some (.own 1),some 5,none,false,true,0⟩],[⟨3,0,false,some (.own 1),some 5,none,false,true,0⟩],[⟨3,0,false,some (.own 1),some 5,none,false,true,0⟩],[⟨3,0,false,some (.own 1),some 5,none,false,true,0⟩],[⟨3,0,false,some (.own 1),some 5,none,false,true,0⟩],[⟨3,0,false,some (.own 1),some 5,none,false,true,0⟩],[⟨3,0,false,some (.own 1),some 5,none,false,true,0⟩],[⟨3,0,false,some (.own 1),some 5,none,false,true,0⟩],[⟨3,0,false,some (.own 1),some 5,none,false,true,0⟩],[⟨3,0,false,some (.own 1),some 5,none,false,true,0⟩],[⟨3,0,false,some (.own 1),some 5,none,false,true,0⟩],[⟨3,0,false,some (.own 1),some 5,none,false,true,0⟩],[⟨3,0,false,some (.own 1),some 5,none,false,true,0⟩],[⟨3,0,false,some (.own 1),some 5,none,false,true,0⟩],[⟨3,0,false,some (.own 1),some 5,none,false,true,0⟩],[⟨3,0,false,some (.own 1),some 5,none,false,true,0⟩],[⟨3,0,false,some (.own 1),some 5,none,false,true,0⟩],[⟨3,0,false,some (.own 1),some 5,none,false,true,0⟩]]
theorem vbAspx_entity_closed10false : closed emb49_rows vbAspx_entity_tab10false (EA.start vbAspx_M vbAspx_entity 10) (EA.succ vbAspx_M vbAspx_entity (10, false)) (EA.eofOk vbAspx_M vbAspx_entity (10, false)) = true := by
  decide +kernel
def vbAspx_entity_C10false : MCert vbAspx_M vbAspx_entity (10, false) := ⟨emb49_D, vbAspx_entity_tab10false, vbAspx_entity_closed10false, (fun h => nomatch h)⟩
def vbAspx_entity_tab7true : List (List EA) := [[⟨0,0,false,none,none,none,false,false,0⟩],[⟨1,0,false,some (.own 0),some 1,none,false,true,0⟩,⟨2,0,false,some (.own 0),some 1,none,false,true,0⟩,⟨3,0,false,some (.own 0),some 1,none,false,true,0⟩],[⟨1,0,false,some (.own 1),some 3,none,false,true,0⟩],[⟨1,0,false,none,some 3,none,false,false,0⟩],[⟨2,0,false,some (.own 1),some 3,none,false,true,0⟩],[⟨2,0,false,none,some 3,none,false,false,0⟩],[⟨3,0,false,some (.own 1),some 3,none,false,true,0⟩],[⟨3,0,false,some (.own 1),some 3,none,false,true,0⟩],[⟨3,0,false,none,some 3,none,false,false,0⟩],[⟨3,0,false,none,some 3,none,false,false,0⟩],[⟨3,0,false,none,some 3,none,false,false,0⟩],[⟨3,0,false,none,some 3,none,false,false,0⟩],[⟨3,0,false,none,some 3,none,false,false,0⟩],[⟨3,0,false,none,some 3,none,false,false,0⟩,⟨3,0,true,some .internalNl,some 3,none,false,true,0⟩],[⟨3,0,false,some .internalNl,some 3,none,false,true,0⟩,⟨3,0,true,some .internalNl,some 3,none,false,true,0⟩],[⟨3,0,false,some .internalNl,some 3,none,false,true,0⟩,⟨3,0,true,some .internalNl,some 3,none,false,true,0⟩],[⟨3,0,false,none,some 3,none,false,false,0⟩,⟨3,0,true,some .internalNl,some 3,none,false,true,0⟩],[⟨3,0,false,some .internalNl,some 3,none,false,true,0⟩,⟨3,0,true,some .internalNl,some 3,none,false,true,0⟩],[⟨3,0,false,some .internalNl,some 3,none,false,true,0⟩,⟨3,0,true,some .internalNl,some 3,none,false,true,0⟩],[⟨3,0,true,some .internalNl,some 3,none,false,true,0⟩]]
theorem vbAspx_entity_closed7true : closed emb3_rows vbAspx_entity_tab7true (EA.start vbAspx_M vbAspx_entity 7) (EA.succ vbAspx_M vbAspx_entity (7, true)) (EA.eofOk vbAspx_M vbAspx_entity (7, true)) = true := by
  decide +kernel
def vbAspx_entity_C7true : MCert vbAspx_M vbAspx_entity (7, true) := ⟨emb3_D, vbAspx_entity_tab7true, vbAspx_entity_closed7true, (fun h => nomatch h)⟩
def vbAspx_entity_tab8true : List (List EA) := [[⟨0,0,false,none,none,none,false,false,0⟩],[⟨1,0,false,some (.own 0),some 1,none,false,true,0⟩,⟨2,0,false,some (.own 0),some 1,none,false,true,0⟩,⟨3,0,false,some (.own 0),some 1,none,false,true,0⟩],[⟨1,0,false,some (.own 1),some 3,none,false,true,0⟩],[⟨1,0,false,none,some 3,none,false,false,0⟩],[⟨2,0,false,some (.own 1),some 3,none,false,true,0⟩],[⟨2,0,false,some (.own 1),some 2,none,false,true,0⟩],[⟨2,0,false,none,some 3,none,false,false,0⟩],[⟨3,0,false,some (.own 1),some 3,none,false,true,0⟩],[⟨3,0,false,some (.own 1),some 3,none,false,true,0⟩],[⟨3,0,false,some (.own 1),some 2,none,false,true,0⟩],[⟨3,0,false,none,some 3,none,false,false,0⟩],[⟨3,0,false,none,some 3,none,false,false,0⟩],[⟨3,0,false,none,some 3,none,false,false,0⟩],[⟨3,0,false,none,some 3,none,false,false,0⟩],[⟨3,0,false,none,some 3,none,false,false,0⟩],[⟨3,0,false,none,some 3,none,false,false,0⟩],[⟨3,0,false,none,some 3,none,false,false,0⟩,⟨3,0,true,some .internalNl,some 3,none,false,true,0⟩],[⟨3,0,false,some .internalNl,some 3,none,false,true,0⟩,⟨3,0,true,some .internalNl,some 3,none,false,true,0⟩],[⟨3,0,false,some .internalNl,some 3,none,false,true,0⟩,⟨3,0,true,some .internalNl,some 3,none,false,true,0⟩],[⟨3,0,false,none,some 3,none,false,false,0⟩,⟨3,0,true,some .internalNl,some 3,none,false,true,0⟩],[⟨3,0,false,some .internalNl,some 3,none,false,true,0⟩,⟨3,0,true,some .internalNl,some 3,none,false,true,0⟩],[⟨3,0,false,some .internalNl,some 3,none,false,true,0⟩,⟨3,0,true,some .internalNl,some 3,none,false,true,0⟩],[⟨3,0,true,some .internalNl,some 3,none,false,true,0⟩]]
theorem vbAspx_entity_closed8true : closed emb4_rows vbAspx_entity_tab8true (EA.start vbAspx_M vbAspx_entity 8) (EA.succ vbAspx_M vbAspx_entity (8, true)) (EA.eofOk vbAspx_M vbAspx_entity (8, true)) = true := by
  decide +kernel
def vbAspx_entity_C8true : MCert vbAspx_M vbAspx_entity (8, true) := ⟨emb4_D, vbAspx_entity_tab8true, vbAspx_entity_closed8true, (fun h => nomatch h)⟩
def vbAspx_entity_tab9true : List (List EA) := [[⟨0,0,false,none,none,none,false,false,0⟩],[⟨1,0,false,some (.own 0),some 1,none,false,true,0⟩,⟨2,0,false,some (.own 0),some 1,none,false,true,0⟩,⟨3,0,false,some (.own 0),some 1,none,false,true,0⟩],[⟨1,0,false,none,some 3,none,false,false,0⟩],[⟨1,0,false,some (.own 1),some 2,none,false,true,0⟩],[⟨1,0,false,none,some 3,none,false,false,0⟩],[⟨1,0,false,some (.own 1),some 3,none,false,true,0⟩],[⟨2,0,false,some (.own 1),some 2,none,false,true,0⟩,⟨3,0,false,some (.own 1),some 2,none,false,true,0⟩],[⟨2,0,false,none,some 3,none,false,false,0⟩],[⟨2,0,false,some (.own 1),some 3,none,false,true,0⟩],[⟨3,0,false,none,some 3,none,false,false,0⟩],[⟨3,0,false,some (.own 1),some 2,none,false,true,0⟩],[⟨3,0,false,none,some 3,none,false,false,0⟩],[⟨3,0,false,none,some 3,none,false,false,0⟩],[⟨3,0,false,none,some 3,none,false,false,0⟩],[⟨3,0,false,none,some 3,none,false,false,0⟩],[⟨3,0,false,none,some 3,none,false,false,0⟩],[⟨3,0,false,none,some 3,none,false,false,0⟩,⟨3,0,true,some .internalNl,some 3,none,false,true,0⟩],[⟨3,0,false,some .internalNl,some 3,none,false,true,0⟩,⟨3,0,true,some .internalNl,some 3,none,false,true,0⟩],[⟨3,0,false,some .internalNl,some 3,none,false,true,0⟩,⟨3,0,true,some .internalNl,some 3,none,false,true,0⟩],[⟨3,0,false,none,some 3,none,false,false,0⟩,⟨3,0,true,some .internalNl,some 3,none,false,true,0⟩],[⟨3,0,false,some .internalNl,some 3,none,false,true,0⟩,⟨3,0,true,some .internalNl,some 3,none,false,true,0⟩],[⟨3,0,false,some .internalNl,some 3,none,false,true,0⟩,⟨3,0,true,some .internalNl,some 3,none,false,true,0⟩],[⟨3,0,true,some .internalNl,some 3,none,false,true,0⟩]]
theorem vbAspx_entity_closed9true : closed emb53_rows vbAspx_entity_tab9true (EA.start vbAspx_M vbAspx_entity 9) (EA.succ vbAspx_M vbAspx_entity (9, true)) (EA.eofOk vbAspx_M vbAspx_entity (9, true)) = true := by
  decide +kernel
def vbAspx_entity_C9true : MCert vbAspx_M vbAspx_entity (9, true) := ⟨emb53_D, vbAspx_entity_tab9true, vbAspx_entity_closed9true, (fun h => nomatch h)⟩
theorem vbAspx_entity_certs : ∀ u ∈ vbAspx_entity.use, Nonempty (MCert vbAspx_M vbAspx_entity u) :=
  (List.forall_mem_cons.mpr ⟨⟨vbAspx_entity_C10false⟩,
  (List.forall_mem_cons.mpr ⟨⟨vbAspx_entity_C7true⟩,
  (List.forall_mem_cons.mpr ⟨⟨vbAspx_entity_C8true⟩,
  (List.forall_mem_cons.mpr ⟨⟨vbAspx_entity_C9true⟩,
  (fun _ h => nomatch h)⟩)⟩)⟩)⟩)

def vbAspx_entityt : EOpt := ⟨true, true, false, [(10,false),(7,true),(8,true),(9,true)], 4⟩
def vbAspx_entityt_tab10false : List (List EA) := [[⟨0,0,false,none,none,none,false,false,0⟩],[⟨1,0,false,some (.own 0),some 3,none,false,true,0⟩,⟨2,0,false,some (.own 0),some 3,none,false,true,0⟩,⟨3,0,false,some (.own 0),some 3,none,false,true,0⟩],[⟨1,0,false,some (.own 1),some 5,none,false,true,1⟩],[⟨2,0,false,some (.own 1),some 5,none,false,true,0⟩],[⟨2,0,false,some (.own 1),some 5,none,false,true,0⟩],[⟨3,0,false,some (.own 1),some 5,none,false,true,0⟩],[⟨3,0,false,some (.own 1),some 5,none,false,true,0⟩],[⟨3,0,false,some (.own 1),some 5,none,false,true,0⟩],[⟨3,0,false,some (.own 1),some 5,none,false,true,0⟩],[⟨3,0,false,some (.own 1),some 5,none,false,true,0⟩],[⟨3,0,false,some (.own 1),some 5,none,false,true,0⟩],[⟨3,0,false,some (.own 1),some 5,none,false,true,0⟩],[⟨3,0,false,some (.own 1),some 5,none,false,true,0⟩],[⟨3,0,false,some (.own 1),some 5,none,false,true,0⟩],[⟨3,0,false,some (.own 1),some 5,none,false,true,0⟩],[⟨3,0,false,some (.own 1),some 5,none,false,true,0⟩],[⟨3,0,false,some (.own 1),some 5,none,false,true,0⟩],[⟨3,0,false,some (.own 1),some 5,none,false,true,0⟩],[⟨3,0,false,some (.own 1),some 5,none,false,true,0⟩],[⟨3,0,false,some (.own 1),some 5,none,false,true,0⟩],[⟨3,0,false,some (.own 1),some 5,none,false,true,0⟩],[⟨3,0,false,some (.own 1),some 5,none,false,true,0⟩],[⟨3,0,false,some (.own 1),some 5,none,false,true,0⟩],[⟨3,0,false,some (.own 1),some 5,none,false,true,0⟩],[⟨3,0,false,some (.own 1),some 5,none,false,true,0⟩],[⟨3,0,false,some (.own 1),some 5,none,false,true,0⟩],[⟨3,0,false,some (.own 1),some 5,none,false,true,0⟩],[⟨3,0,false,some (.own 1),some 5,none,false,true,0⟩],[⟨3,0,false,some (.own 1),some 5,none,false,true,0⟩],[⟨3,0,false,some (.own 1),some 5,none,false,true,0⟩],[⟨3,0,false,some (.own 1),some 5,none,false,true,0⟩],[⟨3,0,false,some (.own 1),some 5,none,false,true,0⟩],[⟨3,0,false,some (.own 1),some 5,none,false,true,0⟩],[⟨3,0,false,some (.own 1),some 5,none,false,true,0⟩],[⟨3,0,false,some (.own 1),some 5,none,false,true,0⟩],[⟨3,0,false,some (.own 1),some 5,none,false,true,0⟩],[⟨3,0,false,some (.own 1),some 5,none,false,true,0⟩],[⟨3,0,false,some (.own 1),some 5,none,false,true,0⟩],[⟨3,0,false,some (.own 1),some 5,none,false,true,0⟩],[⟨3,0,false,some (.own 1),some 5,none,false,true,0⟩],[⟨3,0,false,some (.own 1),some 5,none,false,true,0⟩],[⟨3,0,false,some (.own 1),some 5,none,false,true,0⟩],[⟨3,0,false,some (.own 1),some 5,none,false,true,0⟩],[⟨3,0,false,some (.own 1),some 5,none,false,true,0⟩],[⟨3,0,false,some (.own 1),some 5,none,false,true,0⟩],[⟨3,0,false,some (.own 1),some 5,none,false,true,0⟩],[⟨3,0,false,some (.own 1),some 5,none,false,true,0⟩],[⟨3,0,false,some (.own 1),some 5,none,false,true,0⟩],[⟨3,0,false,some (.own 1),some 5,none,false,true,0⟩],[⟨3,0,false,some (.own 1),some 5,none,false,true,0⟩],[⟨3,0,false,some (.own 1),some 5,none,false,true,0⟩],[⟨3,0,false,some (.own 1),some 5,none,false,true,0⟩],[⟨3,0,false,some (.own 1),some 5,none,false,true,0⟩],[⟨3,0,false,some (.own 1),some 5,none,false,true,0⟩],[⟨3,0,false,some (.own 1),some 5,none,false,true,0⟩],[⟨3,0,false,some (.own 1),some 5,none,false,true,0⟩],[⟨3,0,false,some (.own 1),some 5,none,false,true,0⟩],[⟨3,0,false,some (.own 1),some 5,none,false,true,0⟩],[⟨3,0,false,some (.own 1),some 5,none,false,true,0⟩],[⟨3,0,false,some (.own 1),some 5,none,false,true,0⟩],[⟨3,0,false,some (.own 1),some 5,none,false,true,0⟩],[⟨3,0,false,some (.own 1),some 5,none,false,true,0⟩],[⟨3,0,false,some (.own 1),some 5,none,false,true,0⟩],[⟨3,0,false,some (.own 1),some 5,none,false,true,0⟩],[⟨3,0,false,some (.own 1),some 5,none,false,true,0⟩],[⟨3,0,false,some (.own 1),some 5,none,false,true,0⟩],[⟨3,0,false,some (.own 1),some 5,none,false,true,0⟩],[⟨3,0,false,some (.own 1),some 5,none,false,true,0⟩],[⟨3,0,false,some (.own 1),some 5,none,false,true,0⟩],[⟨3,0,false,some (.own 1),some 5,none,false,true,0⟩],[⟨3,0,false,some (.own 1),some 5,none,false,true,0⟩],[⟨3,0,false,some (.own 1),some 5,none,false,true,0⟩],[⟨3,0,false,some (.own 1),some 5,none,false,true,0⟩],[⟨3,0,false,some (.own 1),some 5,none,false,true,0⟩],[⟨3,0,false,some (.own 1),some 5,none,false,true,0⟩]]
theorem vbAspx_entityt_closed10false : closed emb49_rowst vbAspx_entityt_tab10false (EA.start vbAspx_M vbAspx_entityt 10) (EA.succ vbAspx_M vbAspx_entityt (10, false)) (EA.eofOk vbAspx_M vbAspx_entityt (10, false)) = true := by
  decide +kernel
def vbAspx_entityt_C10false : MCert vbAspx_M vbAspx_entityt (10, false) := ⟨emb49_Dt, vbAspx_entityt_tab10false, vbAspx_entityt_closed10false, (fun _ => ⟨by decide +kernel, by decide +kernel, by decide +kernel⟩)⟩
def vbAspx_entityt_tab7true : List (List EA) := [[⟨0,0,false,none,none,none,false,false,0⟩],[⟨1,0,false,some (.own 0),some 1,none,false,true,0⟩,⟨2,0,false,some (.own 0),some 1,none,false,true,0⟩,⟨3,0,false,some (.own 0),some 1,none,false,true,0⟩],[⟨1,0,false,some (.own 1),some 3,none,false,true,0⟩],[⟨1,0,false,none,some 3,none,false,false,1⟩],[⟨2,0,false,some (.own 1),some 3,none,false,true,0⟩],[⟨2,0,false,none,some 3,none,false,false,2⟩],[⟨3,0,false,some (.own 1),some 3,none,false,true,0⟩],[⟨3,0,false,some (.own 1),some 3,none,false,true,0⟩],[⟨3,0,false,none,some 3,none,false,false,2⟩],[⟨3,0,false,none,some 3,none,false,false,2⟩],[⟨3,0,false,none,some 3,none,false,false,2⟩],[⟨3,0,false,none,some 3,none,false,false,2⟩],[⟨3,0,false,none,some 3,none,false,false,2⟩],[⟨3,0,false,none,some 3,none,false,false,2⟩],[],[],[],[],[],[]]
theorem vbAspx_entityt_closed7true : closed emb3_rowst vbAspx_entityt_tab7true (EA.start vbAspx_M vbAspx_entityt 7) (EA.succ vbAspx_M vbAspx_entityt (7, true)) (EA.eofOk vbAspx_M vbAspx_entityt (7, true)) = true := by
  decide +kernel
def vbAspx_entityt_C7true : MCert vbAspx_M vbAspx_entityt (7, true) := ⟨emb3_Dt, vbAspx_entityt_tab7true, vbAspx_entityt_closed7true, (fun _ => ⟨by decide +kernel, by decide +kernel, by decide +kernel⟩)⟩
def vbAspx_entityt_tab8true : List (List EA) := [[⟨0,0,false,none,none,none,false,false,0⟩],[⟨1,0,false,some (.own 0),some 1,none,false,true,0⟩,⟨2,0,false,some (.own 0),some 1,none,false,true,0⟩,⟨3,0,false,some (.own 0),some 1,none,false,true,0⟩],[⟨1,0,false,some (.own 1),some 3,none,false,true,0⟩],[⟨1,0,false,none,some 3,none,false,false,1⟩],[⟨2,0,false,some (.own 1),some 3,none,false,true,0⟩],[⟨2,0,false,some (.own 1),some 2,none,false,true,0⟩],[⟨2,0,false,none,some 3,none,false,false,2⟩],[⟨3,0,false,some (.own 1),some 3,none,false,true,0⟩],[⟨3,0,false,some (.own 1),some 3,none,false,true,0⟩],[⟨3,0,false,some (.own 1),some 2,none,false,true,0⟩],[⟨3,0,false,none,some 3,none,false,false,2⟩],[⟨3,0,false,none,some 3,none,false,false,2⟩],[⟨3,0,false,none,some 3,none,false,false,2⟩],[⟨3,0,false,none,some 3,none,false,false,2⟩],[⟨3,0,false,none,some 3,none,false,false,2⟩],[⟨3,0,false,none,some 3,none,false,false,2⟩],[⟨3,0,false,none,some 3,none,false,false,2⟩],[],[],[],[],[],[]]
theorem vbAspx_entityt_closed8true : closed emb4_rowst vbAspx_entityt_tab8true (EA.start vbAspx_M vbAspx_entityt 8) (EA.succ vbAspx_M vbAspx_entityt (8, true)) (EA.eofOk vbAspx_M vbAspx_entityt (8, true)) = true := by
  decide +kernel
def vbAspx_entityt_C8true : MCert vbAspx_M vbAspx_entityt (8, true) := ⟨emb4_Dt, vbAspx_entityt_tab8true, vbAspx_entityt_closed8true, (fun _ => ⟨by decide +kernel, by decide +kernel, by decide +kernel⟩)⟩
def vbAspx_entityt_tab9true : List (List EA) := [[⟨0,0,false,none,none,none,false,false,0⟩],[⟨1,0,false,some (.own 0),some 1,none,false,true,0⟩,⟨2,0,false,some (.own 0),some 1,none,false,true,0⟩,⟨3,0,false,some (.own 0),some 1,none,false,true,0⟩],[⟨1,0,false,none,some 3,none,false,false,0⟩],[⟨1,0,false,some (.own 1),some 2,none,false,true,0⟩],[⟨1,0,false,none,some 3,none,false,false,1⟩],[⟨1,0,false,some (.own 1),some 3,none,false,true,0⟩],[⟨2,0,false,some (.own 1),some 2,none,false,true,0⟩,⟨3,0,false,some (.own 1),some 2,none,false,true,0⟩],[⟨2,0,false,none,some 3,none,false,false,2⟩],[⟨2,0,false,some (.own 1),some 3,none,false,true,0⟩],[⟨3,0,false,none,some 3,none,false,false,2⟩],[⟨3,0,false,some (.own 1),some 2,none,false,true,0⟩],[⟨3,0,false,none,some 3,none,false,false,2⟩],[⟨3,0,false,none,some 3,none,false,false,2⟩],[⟨3,0,false,none,some 3,none,false,false,2⟩],[⟨3,0,false,none,some 3,none,false,false,2⟩],[⟨3,0,false,none,some 3,none,false,false,2⟩],[⟨3,0,false,none,some 3,none,false,false,2⟩],[],[],[],[],[],[]]
theorem vbAspx_entityt_closed9true : closed emb53_rowst vbAspx_entityt_tab9true (EA.start vbAspx_M vbAspx_entityt 9) (EA.succ vbAspx_M vbAspx_entityt (9, true)) (EA.eofOk vbAspx_M vbAspx_entityt (9, true)) = true := by
  decide +kernel
def vbAspx_entityt_C9true : MCert vbAspx_M vbAspx_entityt (9, true) := ⟨emb53_Dt, vbAspx_entityt_tab9true, vbAspx_entityt_closed9true, (fun _ => ⟨by decide +kernel, by decide +kernel, by decide +kernel⟩)⟩
theorem vbAspx_entityt_certs : ∀ u ∈ vbAspx_entityt.use, Nonempty (MCert vbAspx_M vbAspx_entityt u) :=
  (List.forall_mem_cons.mpr ⟨⟨vbAspx_entityt_C10false⟩,
  (List.forall_mem_cons.mpr ⟨⟨vbAspx_entityt_C7true⟩,
  (List.forall_mem_cons.mpr ⟨⟨vbAspx_entityt_C8true⟩,
  (List.forall_mem_cons.mpr ⟨⟨vbAspx_entityt_C9true⟩,
  (fun _ h => nomatch h)⟩)⟩)⟩)⟩)

end Ohcount.Cert
