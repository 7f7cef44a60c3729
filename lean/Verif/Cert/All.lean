import Verif.Cert.S1
import Verif.Cert.B1
import Verif.Cert.S2
import Verif.Cert.B2
import Verif.Cert.S3
import Verif.Cert.B3
import Verif.Cert.S4
import Verif.Cert.B4
import Verif.Cert.S5
import Verif.Cert.B5
import Verif.Cert.S6
import Verif.Cert.B6
import Verif.Cert.S7
import Verif.Cert.B7
import Verif.Cert.S8
import Verif.Cert.B8
import Verif.Cert.S9
import Verif.Cert.B9
import Verif.Cert.S10
import Verif.Cert.B10
import Verif.Cert.S11
import Verif.Cert.B11
import Verif.Cert.S12
import Verif.Cert.B12
import Verif.Cert.L1
import Verif.Cert.L2
import Verif.Cert.L3
import Verif.Cert.L4
import Verif.Cert.L5
import Verif.Cert.L6
import Verif.Cert.L7
import Verif.Cert.L8
import Verif.Cert.L9
import Verif.Cert.L10
import Verif.Cert.L11
import Verif.Cert.L12
import Verif.RagelStop

/-! Generated by tools/gen_certs.py. -/

namespace Ohcount.Cert
open Ohcount.Ragel Ohcount.Gram

set_option maxRecDepth 100000

theorem safeAll : ∀ P ∈ parsers, Nonempty (SCert P.line.machine) :=
  (List.forall_mem_cons.mpr ⟨⟨as_line_M_eq ▸ as_line_S⟩,
  (List.forall_mem_cons.mpr ⟨⟨ada_line_M_eq ▸ ada_line_S⟩,
  (List.forall_mem_cons.mpr ⟨⟨ampl_line_M_eq ▸ ampl_line_S⟩,
  (List.forall_mem_cons.mpr ⟨⟨asm_line_M_eq ▸ asm_line_S⟩,
  (List.forall_mem_cons.mpr ⟨⟨augeas_line_M_eq ▸ augeas_line_S⟩,
  (List.forall_mem_cons.mpr ⟨⟨ac_line_M_eq ▸ ac_line_S⟩,
  (List.forall_mem_cons.mpr ⟨⟨am_line_M_eq ▸ am_line_S⟩,
  (List.forall_mem_cons.mpr ⟨⟨awk_line_M_eq ▸ awk_line_S⟩,
  (List.forall_mem_cons.mpr ⟨⟨bat_line_M_eq ▸ bat_line_S⟩,
  (List.forall_mem_cons.mpr ⟨⟨bfpp_line_M_eq ▸ bfpp_line_S⟩,
  (List.forall_mem_cons.mpr ⟨⟨blitzmax_line_M_eq ▸ blitzmax_line_S⟩,
  (List.forall_mem_cons.mpr ⟨⟨boo_line_M_eq ▸ boo_line_S⟩,
  (List.forall_mem_cons.mpr ⟨⟨brainfuck_line_M_eq ▸ brainfuck_line_S⟩,
  (List.forall_mem_cons.mpr ⟨⟨c_line_M_eq ▸ c_line_S⟩,
  (List.forall_mem_cons.mpr ⟨⟨c_line_M_eq ▸ c_line_S⟩,
  (List.forall_mem_cons.mpr ⟨⟨c_line_M_eq ▸ c_line_S⟩,
  (List.forall_mem_cons.mpr ⟨⟨c_line_M_eq ▸ c_line_S⟩,
  (List.forall_mem_cons.mpr ⟨⟨c_line_M_eq ▸ c_line_S⟩,
  (List.forall_mem_cons.mpr ⟨⟨c_line_M_eq ▸ c_line_S⟩,
  (List.forall_mem_cons.mpr ⟨⟨c_line_M_eq ▸ c_line_S⟩,
  (List.forall_mem_cons.mpr ⟨⟨chai_line_M_eq ▸ chai_line_S⟩,
  (List.forall_mem_cons.mpr ⟨⟨cb_line_M_eq ▸ cb_line_S⟩,
  (List.forall_mem_cons.mpr ⟨⟨cs_line_M_eq ▸ cs_line_S⟩,
  (List.forall_mem_cons.mpr ⟨⟨cmake_line_M_eq ▸ cmake_line_S⟩,
  (List.forall_mem_cons.mpr ⟨⟨coq_line_M_eq ▸ coq_line_S⟩,
  (List.forall_mem_cons.mpr ⟨⟨crystal_line_M_eq ▸ crystal_line_S⟩,
  (List.forall_mem_cons.mpr ⟨⟨css_line_M_eq ▸ css_line_S⟩,
  (List.forall_mem_cons.mpr ⟨⟨d_line_M_eq ▸ d_line_S⟩,
  (List.forall_mem_cons.mpr ⟨⟨dart_line_M_eq ▸ dart_line_S⟩,
  (List.forall_mem_cons.mpr ⟨⟨dcl_line_M_eq ▸ dcl_line_S⟩,
  (List.forall_mem_cons.mpr ⟨⟨dylan_line_M_eq ▸ dylan_line_S⟩,
  (List.forall_mem_cons.mpr ⟨⟨ebuild_line_M_eq ▸ ebuild_line_S⟩,
  (List.forall_mem_cons.mpr ⟨⟨eiffel_line_M_eq ▸ eiffel_line_S⟩,
  (List.forall_mem_cons.mpr ⟨⟨elm_line_M_eq ▸ elm_line_S⟩,
  (List.forall_mem_cons.mpr ⟨⟨erlang_line_M_eq ▸ erlang_line_S⟩,
  (List.forall_mem_cons.mpr ⟨⟨exheres_line_M_eq ▸ exheres_line_S⟩,
  (List.forall_mem_cons.mpr ⟨⟨factor_line_M_eq ▸ factor_line_S⟩,
  (List.forall_mem_cons.mpr ⟨⟨forth_line_M_eq ▸ forth_line_S⟩,
  (List.forall_mem_cons.mpr ⟨⟨ffixed_line_M_eq ▸ ffixed_line_S⟩,
  (List.forall_mem_cons.mpr ⟨⟨ffree_line_M_eq ▸ ffree_line_S⟩,
  (List.forall_mem_cons.mpr ⟨⟨fsharp_line_M_eq ▸ fsharp_line_S⟩,
  (List.forall_mem_cons.mpr ⟨⟨glsl_line_M_eq ▸ glsl_line_S⟩,
  (List.forall_mem_cons.mpr ⟨⟨golang_line_M_eq ▸ golang_line_S⟩,
  (List.forall_mem_cons.mpr ⟨⟨grace_line_M_eq ▸ grace_line_S⟩,
  (List.forall_mem_cons.mpr ⟨⟨groovy_line_M_eq ▸ groovy_line_S⟩,
  (List.forall_mem_cons.mpr ⟨⟨haskell_line_M_eq ▸ haskell_line_S⟩,
  (List.forall_mem_cons.mpr ⟨⟨hx_line_M_eq ▸ hx_line_S⟩,
  (List.forall_mem_cons.mpr ⟨⟨idl_pvwave_line_M_eq ▸ idl_pvwave_line_S⟩,
  (List.forall_mem_cons.mpr ⟨⟨jam_line_M_eq ▸ jam_line_S⟩,
  (List.forall_mem_cons.mpr ⟨⟨java_line_M_eq ▸ java_line_S⟩,
  (List.forall_mem_cons.mpr ⟨⟨js_line_M_eq ▸ js_line_S⟩,
  (List.forall_mem_cons.mpr ⟨⟨js_line_M_eq ▸ js_line_S⟩,
  (List.forall_mem_cons.mpr ⟨⟨js_line_M_eq ▸ js_line_S⟩,
  (List.forall_mem_cons.mpr ⟨⟨julia_line_M_eq ▸ julia_line_S⟩,
  (List.forall_mem_cons.mpr ⟨⟨kotlin_line_M_eq ▸ kotlin_line_S⟩,
  (List.forall_mem_cons.mpr ⟨⟨limbo_line_M_eq ▸ limbo_line_S⟩,
  (List.forall_mem_cons.mpr ⟨⟨lisp_line_M_eq ▸ lisp_line_S⟩,
  (List.forall_mem_cons.mpr ⟨⟨lisp_line_M_eq ▸ lisp_line_S⟩,
  (List.forall_mem_cons.mpr ⟨⟨lisp_line_M_eq ▸ lisp_line_S⟩,
  (List.forall_mem_cons.mpr ⟨⟨lisp_line_M_eq ▸ lisp_line_S⟩,
  (List.forall_mem_cons.mpr ⟨⟨lisp_line_M_eq ▸ lisp_line_S⟩,
  (List.forall_mem_cons.mpr ⟨⟨livecode_line_M_eq ▸ livecode_line_S⟩,
  (List.forall_mem_cons.mpr ⟨⟨logtalk_line_M_eq ▸ logtalk_line_S⟩,
  (List.forall_mem_cons.mpr ⟨⟨lua_line_M_eq ▸ lua_line_S⟩,
  (List.forall_mem_cons.mpr ⟨⟨make_line_M_eq ▸ make_line_S⟩,
  (List.forall_mem_cons.mpr ⟨⟨mathematica_line_M_eq ▸ mathematica_line_S⟩,
  (List.forall_mem_cons.mpr ⟨⟨matlab_line_M_eq ▸ matlab_line_S⟩,
  (List.forall_mem_cons.mpr ⟨⟨metafont_line_M_eq ▸ metafont_line_S⟩,
  (List.forall_mem_cons.mpr ⟨⟨metapost_line_M_eq ▸ metapost_line_S⟩,
  (List.forall_mem_cons.mpr ⟨⟨modelica_line_M_eq ▸ modelica_line_S⟩,
  (List.forall_mem_cons.mpr ⟨⟨modula2_line_M_eq ▸ modula2_line_S⟩,
  (List.forall_mem_cons.mpr ⟨⟨modula3_line_M_eq ▸ modula3_line_S⟩,
  (List.forall_mem_cons.mpr ⟨⟨nsis_line_M_eq ▸ nsis_line_S⟩,
  (List.forall_mem_cons.mpr ⟨⟨oberon_line_M_eq ▸ oberon_line_S⟩,
  (List.forall_mem_cons.mpr ⟨⟨objc_line_M_eq ▸ objc_line_S⟩,
  (List.forall_mem_cons.mpr ⟨⟨objj_line_M_eq ▸ objj_line_S⟩,
  (List.forall_mem_cons.mpr ⟨⟨ocaml_line_M_eq ▸ ocaml_line_S⟩,
  (List.forall_mem_cons.mpr ⟨⟨octave_line_M_eq ▸ octave_line_S⟩,
  (List.forall_mem_cons.mpr ⟨⟨pascal_line_M_eq ▸ pascal_line_S⟩,
  (List.forall_mem_cons.mpr ⟨⟨php_line_M_eq ▸ php_line_S⟩,
  (List.forall_mem_cons.mpr ⟨⟨pike_line_M_eq ▸ pike_line_S⟩,
  (List.forall_mem_cons.mpr ⟨⟨postscript_line_M_eq ▸ postscript_line_S⟩,
  (List.forall_mem_cons.mpr ⟨⟨powershell_line_M_eq ▸ powershell_line_S⟩,
  (List.forall_mem_cons.mpr ⟨⟨prolog_line_M_eq ▸ prolog_line_S⟩,
  (List.forall_mem_cons.mpr ⟨⟨puppet_line_M_eq ▸ puppet_line_S⟩,
  (List.forall_mem_cons.mpr ⟨⟨python_line_M_eq ▸ python_line_S⟩,
  (List.forall_mem_cons.mpr ⟨⟨r_line_M_eq ▸ r_line_S⟩,
  (List.forall_mem_cons.mpr ⟨⟨rebol_line_M_eq ▸ rebol_line_S⟩,
  (List.forall_mem_cons.mpr ⟨⟨rexx_line_M_eq ▸ rexx_line_S⟩,
  (List.forall_mem_cons.mpr ⟨⟨ruby_line_M_eq ▸ ruby_line_S⟩,
  (List.forall_mem_cons.mpr ⟨⟨rust_line_M_eq ▸ rust_line_S⟩,
  (List.forall_mem_cons.mpr ⟨⟨scala_line_M_eq ▸ scala_line_S⟩,
  (List.forall_mem_cons.mpr ⟨⟨scilab_line_M_eq ▸ scilab_line_S⟩,
  (List.forall_mem_cons.mpr ⟨⟨shell_line_M_eq ▸ shell_line_S⟩,
  (List.forall_mem_cons.mpr ⟨⟨smalltalk_line_M_eq ▸ smalltalk_line_S⟩,
  (List.forall_mem_cons.mpr ⟨⟨sql_line_M_eq ▸ sql_line_S⟩,
  (List.forall_mem_cons.mpr ⟨⟨stratego_line_M_eq ▸ stratego_line_S⟩,
  (List.forall_mem_cons.mpr ⟨⟨sb_line_M_eq ▸ sb_line_S⟩,
  (List.forall_mem_cons.mpr ⟨⟨swift_line_M_eq ▸ swift_line_S⟩,
  (List.forall_mem_cons.mpr ⟨⟨tcl_line_M_eq ▸ tcl_line_S⟩,
  (List.forall_mem_cons.mpr ⟨⟨tex_line_M_eq ▸ tex_line_S⟩,
  (List.forall_mem_cons.mpr ⟨⟨tex_dtx_line_M_eq ▸ tex_dtx_line_S⟩,
  (List.forall_mem_cons.mpr ⟨⟨umple_line_M_eq ▸ umple_line_S⟩,
  (List.forall_mem_cons.mpr ⟨⟨unrealscript_line_M_eq ▸ unrealscript_line_S⟩,
  (List.forall_mem_cons.mpr ⟨⟨vhdl_line_M_eq ▸ vhdl_line_S⟩,
  (List.forall_mem_cons.mpr ⟨⟨vim_line_M_eq ▸ vim_line_S⟩,
  (List.forall_mem_cons.mpr ⟨⟨vb_line_M_eq ▸ vb_line_S⟩,
  (List.forall_mem_cons.mpr ⟨⟨xaml_line_M_eq ▸ xaml_line_S⟩,
  (List.forall_mem_cons.mpr ⟨⟨xml_line_M_eq ▸ xml_line_S⟩,
  (List.forall_mem_cons.mpr ⟨⟨xmlschema_line_M_eq ▸ xmlschema_line_S⟩,
  (List.forall_mem_cons.mpr ⟨⟨xslt_line_M_eq ▸ xslt_line_S⟩,
  (fun _ h => nomatch h)⟩)⟩)⟩)⟩)⟩)⟩)⟩)⟩)⟩)⟩)⟩)⟩)⟩)⟩)⟩)⟩)⟩)⟩)⟩)⟩)⟩)⟩)⟩)⟩)⟩)⟩)⟩)⟩)⟩)⟩)⟩)⟩)⟩)⟩)⟩)⟩)⟩)⟩)⟩)⟩)⟩)⟩)⟩)⟩)⟩)⟩)⟩)⟩)⟩)⟩)⟩)⟩)⟩)⟩)⟩)⟩)⟩)⟩)⟩)⟩)⟩)⟩)⟩)⟩)⟩)⟩)⟩)⟩)⟩)⟩)⟩)⟩)⟩)⟩)⟩)⟩)⟩)⟩)⟩)⟩)⟩)⟩)⟩)⟩)⟩)⟩)⟩)⟩)⟩)⟩)⟩)⟩)⟩)⟩)⟩)⟩)⟩)⟩)⟩)⟩)⟩)⟩)⟩)⟩)⟩)⟩)⟩)⟩)⟩)⟩)⟩)

/-- No pattern of a line scanner starts with a vertical tab. -/
theorem noTab : ∀ P ∈ parsers, NoStart P.line.machine 11 :=
  (List.forall_mem_cons.mpr ⟨as_line_M_eq ▸ (by unfold NoStart; decide +kernel : NoStart as_line_M 11),
  (List.forall_mem_cons.mpr ⟨ada_line_M_eq ▸ (by unfold NoStart; decide +kernel : NoStart ada_line_M 11),
  (List.forall_mem_cons.mpr ⟨ampl_line_M_eq ▸ (by unfold NoStart; decide +kernel : NoStart ampl_line_M 11),
  (List.forall_mem_cons.mpr ⟨asm_line_M_eq ▸ (by unfold NoStart; decide +kernel : NoStart asm_line_M 11),
  (List.forall_mem_cons.mpr ⟨augeas_line_M_eq ▸ (by unfold NoStart; decide +kernel : NoStart augeas_line_M 11),
  (List.forall_mem_cons.mpr ⟨ac_line_M_eq ▸ (by unfold NoStart; decide +kernel : NoStart ac_line_M 11),
  (List.forall_mem_cons.mpr ⟨am_line_M_eq ▸ (by unfold NoStart; decide +kernel : NoStart am_line_M 11),
  (List.forall_mem_cons.mpr ⟨awk_line_M_eq ▸ (by unfold NoStart; decide +kernel : NoStart awk_line_M 11),
  (List.forall_mem_cons.mpr ⟨bat_line_M_eq ▸ (by unfold NoStart; decide +kernel : NoStart bat_line_M 11),
  (List.forall_mem_cons.mpr ⟨bfpp_line_M_eq ▸ (by unfold NoStart; decide +kernel : NoStart bfpp_line_M 11),
  (List.forall_mem_cons.mpr ⟨blitzmax_line_M_eq ▸ (by unfold NoStart; decide +kernel : NoStart blitzmax_line_M 11),
  (List.forall_mem_cons.mpr ⟨boo_line_M_eq ▸ (by unfold NoStart; decide +kernel : NoStart boo_line_M 11),
  (List.forall_mem_cons.mpr ⟨brainfuck_line_M_eq ▸ (by unfold NoStart; decide +kernel : NoStart brainfuck_line_M 11),
  (List.forall_mem_cons.mpr ⟨c_line_M_eq ▸ (by unfold NoStart; decide +kernel : NoStart c_line_M 11),
  (List.forall_mem_cons.mpr ⟨c_line_M_eq ▸ (by unfold NoStart; decide +kernel : NoStart c_line_M 11),
  (List.forall_mem_cons.mpr ⟨c_line_M_eq ▸ (by unfold NoStart; decide +kernel : NoStart c_line_M 11),
  (List.forall_mem_cons.mpr ⟨c_line_M_eq ▸ (by unfold NoStart; decide +kernel : NoStart c_line_M 11),
  (List.forall_mem_cons.mpr ⟨c_line_M_eq ▸ (by unfold NoStart; decide +kernel : NoStart c_line_M 11),
  (List.forall_mem_cons.mpr ⟨c_line_M_eq ▸ (by unfold NoStart; decide +kernel : NoStart c_line_M 11),
  (List.forall_mem_cons.mpr ⟨c_line_M_eq ▸ (by unfold NoStart; decide +kernel : NoStart c_line_M 11),
  (List.forall_mem_cons.mpr ⟨chai_line_M_eq ▸ (by unfold NoStart; decide +kernel : NoStart chai_line_M 11),
  (List.forall_mem_cons.mpr ⟨cb_line_M_eq ▸ (by unfold NoStart; decide +kernel : NoStart cb_line_M 11),
  (List.forall_mem_cons.mpr ⟨cs_line_M_eq ▸ (by unfold NoStart; decide +kernel : NoStart cs_line_M 11),
  (List.forall_mem_cons.mpr ⟨cmake_line_M_eq ▸ (by unfold NoStart; decide +kernel : NoStart cmake_line_M 11),
  (List.forall_mem_cons.mpr ⟨coq_line_M_eq ▸ (by unfold NoStart; decide +kernel : NoStart coq_line_M 11),
  (List.forall_mem_cons.mpr ⟨crystal_line_M_eq ▸ (by unfold NoStart; decide +kernel : NoStart crystal_line_M 11),
  (List.forall_mem_cons.mpr ⟨css_line_M_eq ▸ (by unfold NoStart; decide +kernel : NoStart css_line_M 11),
  (List.forall_mem_cons.mpr ⟨d_line_M_eq ▸ (by unfold NoStart; decide +kernel : NoStart d_line_M 11),
  (List.forall_mem_cons.mpr ⟨dart_line_M_eq ▸ (by unfold NoStart; decide +kernel : NoStart dart_line_M 11),
  (List.forall_mem_cons.mpr ⟨dcl_line_M_eq ▸ (by unfold NoStart; decide +kernel : NoStart dcl_line_M 11),
  (List.forall_mem_cons.mpr ⟨dylan_line_M_eq ▸ (by unfold NoStart; decide +kernel : NoStart dylan_line_M 11),
  (List.forall_mem_cons.mpr ⟨ebuild_line_M_eq ▸ (by unfold NoStart; decide +kernel : NoStart ebuild_line_M 11),
  (List.forall_mem_cons.mpr ⟨eiffel_line_M_eq ▸ (by unfold NoStart; decide +kernel : NoStart eiffel_line_M 11),
  (List.forall_mem_cons.mpr ⟨elm_line_M_eq ▸ (by unfold NoStart; decide +kernel : NoStart elm_line_M 11),
  (List.forall_mem_cons.mpr ⟨erlang_line_M_eq ▸ (by unfold NoStart; decide +kernel : NoStart erlang_line_M 11),
  (List.forall_mem_cons.mpr ⟨exheres_line_M_eq ▸ (by unfold NoStart; decide +kernel : NoStart exheres_line_M 11),
  (List.forall_mem_cons.mpr ⟨factor_line_M_eq ▸ (by unfold NoStart; decide +kernel : NoStart factor_line_M 11),
  (List.forall_mem_cons.mpr ⟨forth_line_M_eq ▸ (by unfold NoStart; decide +kernel : NoStart forth_line_M 11),
  (List.forall_mem_cons.mpr ⟨ffixed_line_M_eq ▸ (by unfold NoStart; decide +kernel : NoStart ffixed_line_M 11),
  (List.forall_mem_cons.mpr ⟨ffree_line_M_eq ▸ (by unfold NoStart; decide +kernel : NoStart ffree_line_M 11),
  (List.forall_mem_cons.mpr ⟨fsharp_line_M_eq ▸ (by unfold NoStart; decide +kernel : NoStart fsharp_line_M 11),
  (List.forall_mem_cons.mpr ⟨glsl_line_M_eq ▸ (by unfold NoStart; decide +kernel : NoStart glsl_line_M 11),
  (List.forall_mem_cons.mpr ⟨golang_line_M_eq ▸ (by unfold NoStart; decide +kernel : NoStart golang_line_M 11),
  (List.forall_mem_cons.mpr ⟨grace_line_M_eq ▸ (by unfold NoStart; decide +kernel : NoStart grace_line_M 11),
  (List.forall_mem_cons.mpr ⟨groovy_line_M_eq ▸ (by unfold NoStart; decide +kernel : NoStart groovy_line_M 11),
  (List.forall_mem_cons.mpr ⟨haskell_line_M_eq ▸ (by unfold NoStart; decide +kernel : NoStart haskell_line_M 11),
  (List.forall_mem_cons.mpr ⟨hx_line_M_eq ▸ (by unfold NoStart; decide +kernel : NoStart hx_line_M 11),
  (List.forall_mem_cons.mpr ⟨idl_pvwave_line_M_eq ▸ (by unfold NoStart; decide +kernel : NoStart idl_pvwave_line_M 11),
  (List.forall_mem_cons.mpr ⟨jam_line_M_eq ▸ (by unfold NoStart; decide +kernel : NoStart jam_line_M 11),
  (List.forall_mem_cons.mpr ⟨java_line_M_eq ▸ (by unfold NoStart; decide +kernel : NoStart java_line_M 11),
  (List.forall_mem_cons.mpr ⟨js_line_M_eq ▸ (by unfold NoStart; decide +kernel : NoStart js_line_M 11),
  (List.forall_mem_cons.mpr ⟨js_line_M_eq ▸ (by unfold NoStart; decide +kernel : NoStart js_line_M 11),
  (List.forall_mem_cons.mpr ⟨js_line_M_eq ▸ (by unfold NoStart; decide +kernel : NoStart js_line_M 11),
  (List.forall_mem_cons.mpr ⟨julia_line_M_eq ▸ (by unfold NoStart; decide +kernel : NoStart julia_line_M 11),
  (List.forall_mem_cons.mpr ⟨kotlin_line_M_eq ▸ (by unfold NoStart; decide +kernel : NoStart kotlin_line_M 11),
  (List.forall_mem_cons.mpr ⟨limbo_line_M_eq ▸ (by unfold NoStart; decide +kernel : NoStart limbo_line_M 11),
  (List.forall_mem_cons.mpr ⟨lisp_line_M_eq ▸ (by unfold NoStart; decide +kernel : NoStart lisp_line_M 11),
  (List.forall_mem_cons.mpr ⟨lisp_line_M_eq ▸ (by unfold NoStart; decide +kernel : NoStart lisp_line_M 11),
  (List.forall_mem_cons.mpr ⟨lisp_line_M_eq ▸ (by unfold NoStart; decide +kernel : NoStart lisp_line_M 11),
  (List.forall_mem_cons.mpr ⟨lisp_line_M_eq ▸ (by unfold NoStart; decide +kernel : NoStart lisp_line_M 11),
  (List.forall_mem_cons.mpr ⟨lisp_line_M_eq ▸ (by unfold NoStart; decide +kernel : NoStart lisp_line_M 11),
  (List.forall_mem_cons.mpr ⟨livecode_line_M_eq ▸ (by unfold NoStart; decide +kernel : NoStart livecode_line_M 11),
  (List.forall_mem_cons.mpr ⟨logtalk_line_M_eq ▸ (by unfold NoStart; decide +kernel : NoStart logtalk_line_M 11),
  (List.forall_mem_cons.mpr ⟨lua_line_M_eq ▸ (by unfold NoStart; decide +kernel : NoStart lua_line_M 11),
  (List.forall_mem_cons.mpr ⟨make_line_M_eq ▸ (by unfold NoStart; decide +kernel : NoStart make_line_M 11),
  (List.forall_mem_cons.mpr ⟨mathematica_line_M_eq ▸ (by unfold NoStart; decide +kernel : NoStart mathematica_line_M 11),
  (List.forall_mem_cons.mpr ⟨matlab_line_M_eq ▸ (by unfold NoStart; decide +kernel : NoStart matlab_line_M 11),
  (List.forall_mem_cons.mpr ⟨metafont_line_M_eq ▸ (by unfold NoStart; decide +kernel : NoStart metafont_line_M 11),
  (List.forall_mem_cons.mpr ⟨metapost_line_M_eq ▸ (by unfold NoStart; decide +kernel : NoStart metapost_line_M 11),
  (List.forall_mem_cons.mpr ⟨modelica_line_M_eq ▸ (by unfold NoStart; decide +kernel : NoStart modelica_line_M 11),
  (List.forall_mem_cons.mpr ⟨modula2_line_M_eq ▸ (by unfold NoStart; decide +kernel : NoStart modula2_line_M 11),
  (List.forall_mem_cons.mpr ⟨modula3_line_M_eq ▸ (by unfold NoStart; decide +kernel : NoStart modula3_line_M 11),
  (List.forall_mem_cons.mpr ⟨nsis_line_M_eq ▸ (by unfold NoStart; decide +kernel : NoStart nsis_line_M 11),
  (List.forall_mem_cons.mpr ⟨oberon_line_M_eq ▸ (by unfold NoStart; decide +kernel : NoStart oberon_line_M 11),
  (List.forall_mem_cons.mpr ⟨objc_line_M_eq ▸ (by unfold NoStart; decide +kernel : NoStart objc_line_M 11),
  (List.forall_mem_cons.mpr ⟨objj_line_M_eq ▸ (by unfold NoStart; decide +kernel : NoStart objj_line_M 11),
  (List.forall_mem_cons.mpr ⟨ocaml_line_M_eq ▸ (by unfold NoStart; decide +kernel : NoStart ocaml_line_M 11),
  (List.forall_mem_cons.mpr ⟨octave_line_M_eq ▸ (by unfold NoStart; decide +kernel : NoStart octave_line_M 11),
  (List.forall_mem_cons.mpr ⟨pascal_line_M_eq ▸ (by unfold NoStart; decide +kernel : NoStart pascal_line_M 11),
  (List.forall_mem_cons.mpr ⟨php_line_M_eq ▸ (by unfold NoStart; decide +kernel : NoStart php_line_M 11),
  (List.forall_mem_cons.mpr ⟨pike_line_M_eq ▸ (by unfold NoStart; decide +kernel : NoStart pike_line_M 11),
  (List.forall_mem_cons.mpr ⟨postscript_line_M_eq ▸ (by unfold NoStart; decide +kernel : NoStart postscript_line_M 11),
  (List.forall_mem_cons.mpr ⟨powershell_line_M_eq ▸ (by unfold NoStart; decide +kernel : NoStart powershell_line_M 11),
  (List.forall_mem_cons.mpr ⟨prolog_line_M_eq ▸ (by unfold NoStart; decide +kernel : NoStart prolog_line_M 11),
  (List.forall_mem_cons.mpr ⟨puppet_line_M_eq ▸ (by unfold NoStart; decide +kernel : NoStart puppet_line_M 11),
  (List.forall_mem_cons.mpr ⟨python_line_M_eq ▸ (by unfold NoStart; decide +kernel : NoStart python_line_M 11),
  (List.forall_mem_cons.mpr ⟨r_line_M_eq ▸ (by unfold NoStart; decide +kernel : NoStart r_line_M 11),
  (List.forall_mem_cons.mpr ⟨rebol_line_M_eq ▸ (by unfold NoStart; decide +kernel : NoStart rebol_line_M 11),
  (List.forall_mem_cons.mpr ⟨rexx_line_M_eq ▸ (by unfold NoStart; decide +kernel : NoStart rexx_line_M 11),
  (List.forall_mem_cons.mpr ⟨ruby_line_M_eq ▸ (by unfold NoStart; decide +kernel : NoStart ruby_line_M 11),
  (List.forall_mem_cons.mpr ⟨rust_line_M_eq ▸ (by unfold NoStart; decide +kernel : NoStart rust_line_M 11),
  (List.forall_mem_cons.mpr ⟨scala_line_M_eq ▸ (by unfold NoStart; decide +kernel : NoStart scala_line_M 11),
  (List.forall_mem_cons.mpr ⟨scilab_line_M_eq ▸ (by unfold NoStart; decide +kernel : NoStart scilab_line_M 11),
  (List.forall_mem_cons.mpr ⟨shell_line_M_eq ▸ (by unfold NoStart; decide +kernel : NoStart shell_line_M 11),
  (List.forall_mem_cons.mpr ⟨smalltalk_line_M_eq ▸ (by unfold NoStart; decide +kernel : NoStart smalltalk_line_M 11),
  (List.forall_mem_cons.mpr ⟨sql_line_M_eq ▸ (by unfold NoStart; decide +kernel : NoStart sql_line_M 11),
  (List.forall_mem_cons.mpr ⟨stratego_line_M_eq ▸ (by unfold NoStart; decide +kernel : NoStart stratego_line_M 11),
  (List.forall_mem_cons.mpr ⟨sb_line_M_eq ▸ (by unfold NoStart; decide +kernel : NoStart sb_line_M 11),
  (List.forall_mem_cons.mpr ⟨swift_line_M_eq ▸ (by unfold NoStart; decide +kernel : NoStart swift_line_M 11),
  (List.forall_mem_cons.mpr ⟨tcl_line_M_eq ▸ (by unfold NoStart; decide +kernel : NoStart tcl_line_M 11),
  (List.forall_mem_cons.mpr ⟨tex_line_M_eq ▸ (by unfold NoStart; decide +kernel : NoStart tex_line_M 11),
  (List.forall_mem_cons.mpr ⟨tex_dtx_line_M_eq ▸ (by unfold NoStart; decide +kernel : NoStart tex_dtx_line_M 11),
  (List.forall_mem_cons.mpr ⟨umple_line_M_eq ▸ (by unfold NoStart; decide +kernel : NoStart umple_line_M 11),
  (List.forall_mem_cons.mpr ⟨unrealscript_line_M_eq ▸ (by unfold NoStart; decide +kernel : NoStart unrealscript_line_M 11),
  (List.forall_mem_cons.mpr ⟨vhdl_line_M_eq ▸ (by unfold NoStart; decide +kernel : NoStart vhdl_line_M 11),
  (List.forall_mem_cons.mpr ⟨vim_line_M_eq ▸ (by unfold NoStart; decide +kernel : NoStart vim_line_M 11),
  (List.forall_mem_cons.mpr ⟨vb_line_M_eq ▸ (by unfold NoStart; decide +kernel : NoStart vb_line_M 11),
  (List.forall_mem_cons.mpr ⟨xaml_line_M_eq ▸ (by unfold NoStart; decide +kernel : NoStart xaml_line_M 11),
  (List.forall_mem_cons.mpr ⟨xml_line_M_eq ▸ (by unfold NoStart; decide +kernel : NoStart xml_line_M 11),
  (List.forall_mem_cons.mpr ⟨xmlschema_line_M_eq ▸ (by unfold NoStart; decide +kernel : NoStart xmlschema_line_M 11),
  (List.forall_mem_cons.mpr ⟨xslt_line_M_eq ▸ (by unfold NoStart; decide +kernel : NoStart xslt_line_M 11),
  (fun _ h => nomatch h)⟩)⟩)⟩)⟩)⟩)⟩)⟩)⟩)⟩)⟩)⟩)⟩)⟩)⟩)⟩)⟩)⟩)⟩)⟩)⟩)⟩)⟩)⟩)⟩)⟩)⟩)⟩)⟩)⟩)⟩)⟩)⟩)⟩)⟩)⟩)⟩)⟩)⟩)⟩)⟩)⟩)⟩)⟩)⟩)⟩)⟩)⟩)⟩)⟩)⟩)⟩)⟩)⟩)⟩)⟩)⟩)⟩)⟩)⟩)⟩)⟩)⟩)⟩)⟩)⟩)⟩)⟩)⟩)⟩)⟩)⟩)⟩)⟩)⟩)⟩)⟩)⟩)⟩)⟩)⟩)⟩)⟩)⟩)⟩)⟩)⟩)⟩)⟩)⟩)⟩)⟩)⟩)⟩)⟩)⟩)⟩)⟩)⟩)⟩)⟩)⟩)⟩)⟩)⟩)⟩)⟩)⟩)⟩)⟩)⟩)⟩)

/-- The level at which the lines of a parser are checked, by scanner (see RagelExact.lean): no level for
lua, rebol and vim. -/
def levels : List (Parser × Lvl) := [
  (parse_actionscript, ⟨true, true, true, false⟩),
  (parse_ada, ⟨true, true, false, false⟩),
  (parse_ampl, ⟨true, true, true, false⟩),
  (parse_assembler, ⟨true, true, true, false⟩),
  (parse_augeas, ⟨true, true, true, false⟩),
  (parse_autoconf, ⟨true, false, true, false⟩),
  (parse_automake, ⟨true, true, false, false⟩),
  (parse_awk, ⟨true, true, false, false⟩),
  (parse_bat, ⟨true, true, false, false⟩),
  (parse_bfpp, ⟨true, false, true, false⟩),
  (parse_blitzmax, ⟨true, true, true, false⟩),
  (parse_boo, ⟨true, true, true, false⟩),
  (parse_brainfuck, ⟨true, true, false, false⟩),
  (parse_c, ⟨true, false, true, true⟩),
  (parse_cpp, ⟨true, false, true, true⟩),
  (parse_csharp, ⟨true, false, true, true⟩),
  (parse_vala, ⟨true, false, true, true⟩),
  (parse_genie, ⟨true, false, true, true⟩),
  (parse_cuda, ⟨true, false, true, true⟩),
  (parse_ec, ⟨true, false, true, true⟩),
  (parse_chaiscript, ⟨true, false, true, true⟩),
  (parse_classic_basic, ⟨true, true, false, false⟩),
  (parse_clearsilver, ⟨true, true, false, false⟩),
  (parse_cmake, ⟨true, true, true, false⟩),
  (parse_coq, ⟨false, false, true, false⟩),
  (parse_crystal, ⟨true, true, true, false⟩),
  (parse_css, ⟨true, false, true, false⟩),
  (parse_d, ⟨true, false, true, true⟩),
  (parse_dart, ⟨true, true, true, false⟩),
  (parse_dcl, ⟨true, false, false, false⟩),
  (parse_dylan, ⟨true, true, true, false⟩),
  (parse_ebuild, ⟨true, true, false, false⟩),
  (parse_eiffel, ⟨true, true, false, false⟩),
  (parse_elm, ⟨true, false, true, true⟩),
  (parse_erlang, ⟨true, true, false, false⟩),
  (parse_exheres, ⟨true, true, false, false⟩),
  (parse_factor, ⟨true, false, true, false⟩),
  (parse_forth, ⟨true, false, true, false⟩),
  (parse_fortranfixed, ⟨true, true, false, false⟩),
  (parse_fortranfree, ⟨true, false, true, false⟩),
  (parse_fsharp, ⟨true, false, true, true⟩),
  (parse_glsl, ⟨true, false, true, true⟩),
  (parse_golang, ⟨true, false, true, true⟩),
  (parse_grace, ⟨true, false, true, false⟩),
  (parse_groovy, ⟨true, false, true, true⟩),
  (parse_haskell, ⟨true, false, true, true⟩),
  (parse_haxe, ⟨true, true, true, false⟩),
  (parse_idl_pvwave, ⟨true, true, false, false⟩),
  (parse_jam, ⟨true, false, true, false⟩),
  (parse_java, ⟨true, true, true, false⟩),
  (parse_javascript, ⟨true, false, true, true⟩),
  (parse_qml, ⟨true, false, true, true⟩),
  (parse_typescript, ⟨true, false, true, true⟩),
  (parse_julia, ⟨true, true, true, false⟩),
  (parse_kotlin, ⟨false, true, true, false⟩),
  (parse_limbo, ⟨true, true, false, false⟩),
  (parse_lisp, ⟨true, false, true, true⟩),
  (parse_emacslisp, ⟨true, false, true, true⟩),
  (parse_scheme, ⟨true, false, true, true⟩),
  (parse_clojure, ⟨true, false, true, true⟩),
  (parse_racket, ⟨true, false, true, true⟩),
  (parse_livecode, ⟨true, true, true, false⟩),
  (parse_logtalk, ⟨true, true, true, false⟩),
  (parse_makefile, ⟨true, true, false, false⟩),
  (parse_mathematica, ⟨true, true, true, true⟩),
  (parse_matlab, ⟨true, true, true, false⟩),
  (parse_metafont, ⟨true, true, false, false⟩),
  (parse_metapost, ⟨true, true, false, false⟩),
  (parse_modelica, ⟨false, true, true, false⟩),
  (parse_modula2, ⟨true, true, true, false⟩),
  (parse_modula3, ⟨true, false, true, true⟩),
  (parse_nsis, ⟨true, true, true, false⟩),
  (parse_oberon, ⟨true, true, true, false⟩),
  (parse_objective_c, ⟨true, true, true, false⟩),
  (parse_objective_j, ⟨true, true, true, false⟩),
  (parse_ocaml, ⟨true, true, true, false⟩),
  (parse_octave, ⟨true, true, true, false⟩),
  (parse_pascal, ⟨true, false, true, false⟩),
  (parse_php, ⟨false, true, true, false⟩),
  (parse_pike, ⟨true, true, true, false⟩),
  (parse_postscript, ⟨true, true, false, false⟩),
  (parse_powershell, ⟨true, false, true, false⟩),
  (parse_prolog, ⟨true, true, true, false⟩),
  (parse_puppet, ⟨true, false, true, false⟩),
  (parse_python, ⟨true, true, true, false⟩),
  (parse_r, ⟨true, true, false, false⟩),
  (parse_rexx, ⟨true, true, true, false⟩),
  (parse_ruby, ⟨true, true, true, false⟩),
  (parse_rust, ⟨true, false, true, true⟩),
  (parse_scala, ⟨true, true, true, false⟩),
  (parse_scilab, ⟨true, true, false, false⟩),
  (parse_shell, ⟨true, false, true, false⟩),
  (parse_smalltalk, ⟨true, false, true, false⟩),
  (parse_sql, ⟨true, false, true, false⟩),
  (parse_stratego, ⟨true, false, true, true⟩),
  (parse_structured_basic, ⟨true, true, false, false⟩),
  (parse_swift, ⟨true, true, true, false⟩),
  (parse_tcl, ⟨true, false, true, false⟩),
  (parse_tex, ⟨true, true, false, false⟩),
  (parse_tex_dtx, ⟨true, true, false, false⟩),
  (parse_umple, ⟨true, true, true, false⟩),
  (parse_unrealscript, ⟨true, false, true, true⟩),
  (parse_vhdl, ⟨true, true, false, false⟩),
  (parse_visual_basic, ⟨true, true, false, false⟩),
  (parse_xaml, ⟨true, true, true, false⟩),
  (parse_xml, ⟨true, true, true, false⟩),
  (parse_xmlschema, ⟨true, true, true, false⟩),
  (parse_xslt, ⟨true, true, true, false⟩)]

theorem linesAll : ∀ x ∈ levels, Nonempty (BCert x.2 x.1.line.machine) :=
  (List.forall_mem_cons.mpr ⟨⟨as_line_M_eq ▸ as_line_B⟩,
  (List.forall_mem_cons.mpr ⟨⟨ada_line_M_eq ▸ ada_line_B⟩,
  (List.forall_mem_cons.mpr ⟨⟨ampl_line_M_eq ▸ ampl_line_B⟩,
  (List.forall_mem_cons.mpr ⟨⟨asm_line_M_eq ▸ asm_line_B⟩,
  (List.forall_mem_cons.mpr ⟨⟨augeas_line_M_eq ▸ augeas_line_B⟩,
  (List.forall_mem_cons.mpr ⟨⟨ac_line_M_eq ▸ ac_line_B⟩,
  (List.forall_mem_cons.mpr ⟨⟨am_line_M_eq ▸ am_line_B⟩,
  (List.forall_mem_cons.mpr ⟨⟨awk_line_M_eq ▸ awk_line_B⟩,
  (List.forall_mem_cons.mpr ⟨⟨bat_line_M_eq ▸ bat_line_B⟩,
  (List.forall_mem_cons.mpr ⟨⟨bfpp_line_M_eq ▸ bfpp_line_B⟩,
  (List.forall_mem_cons.mpr ⟨⟨blitzmax_line_M_eq ▸ blitzmax_line_B⟩,
  (List.forall_mem_cons.mpr ⟨⟨boo_line_M_eq ▸ boo_line_B⟩,
  (List.forall_mem_cons.mpr ⟨⟨brainfuck_line_M_eq ▸ brainfuck_line_B⟩,
  (List.forall_mem_cons.mpr ⟨⟨c_line_M_eq ▸ c_line_B⟩,
  (List.forall_mem_cons.mpr ⟨⟨c_line_M_eq ▸ c_line_B⟩,
  (List.forall_mem_cons.mpr ⟨⟨c_line_M_eq ▸ c_line_B⟩,
  (List.forall_mem_cons.mpr ⟨⟨c_line_M_eq ▸ c_line_B⟩,
  (List.forall_mem_cons.mpr ⟨⟨c_line_M_eq ▸ c_line_B⟩,
  (List.forall_mem_cons.mpr ⟨⟨c_line_M_eq ▸ c_line_B⟩,
  (List.forall_mem_cons.mpr ⟨⟨c_line_M_eq ▸ c_line_B⟩,
  (List.forall_mem_cons.mpr ⟨⟨chai_line_M_eq ▸ chai_line_B⟩,
  (List.forall_mem_cons.mpr ⟨⟨cb_line_M_eq ▸ cb_line_B⟩,
  (List.forall_mem_cons.mpr ⟨⟨cs_line_M_eq ▸ cs_line_B⟩,
  (List.forall_mem_cons.mpr ⟨⟨cmake_line_M_eq ▸ cmake_line_B⟩,
  (List.forall_mem_cons.mpr ⟨⟨coq_line_M_eq ▸ coq_line_B⟩,
  (List.forall_mem_cons.mpr ⟨⟨crystal_line_M_eq ▸ crystal_line_B⟩,
  (List.forall_mem_cons.mpr ⟨⟨css_line_M_eq ▸ css_line_B⟩,
  (List.forall_mem_cons.mpr ⟨⟨d_line_M_eq ▸ d_line_B⟩,
  (List.forall_mem_cons.mpr ⟨⟨dart_line_M_eq ▸ dart_line_B⟩,
  (List.forall_mem_cons.mpr ⟨⟨dcl_line_M_eq ▸ dcl_line_B⟩,
  (List.forall_mem_cons.mpr ⟨⟨dylan_line_M_eq ▸ dylan_line_B⟩,
  (List.forall_mem_cons.mpr ⟨⟨ebuild_line_M_eq ▸ ebuild_line_B⟩,
  (List.forall_mem_cons.mpr ⟨⟨eiffel_line_M_eq ▸ eiffel_line_B⟩,
  (List.forall_mem_cons.mpr ⟨⟨elm_line_M_eq ▸ elm_line_B⟩,
  (List.forall_mem_cons.mpr ⟨⟨erlang_line_M_eq ▸ erlang_line_B⟩,
  (List.forall_mem_cons.mpr ⟨⟨exheres_line_M_eq ▸ exheres_line_B⟩,
  (List.forall_mem_cons.mpr ⟨⟨factor_line_M_eq ▸ factor_line_B⟩,
  (List.forall_mem_cons.mpr ⟨⟨forth_line_M_eq ▸ forth_line_B⟩,
  (List.forall_mem_cons.mpr ⟨⟨ffixed_line_M_eq ▸ ffixed_line_B⟩,
  (List.forall_mem_cons.mpr ⟨⟨ffree_line_M_eq ▸ ffree_line_B⟩,
  (List.forall_mem_cons.mpr ⟨⟨fsharp_line_M_eq ▸ fsharp_line_B⟩,
  (List.forall_mem_cons.mpr ⟨⟨glsl_line_M_eq ▸ glsl_line_B⟩,
  (List.forall_mem_cons.mpr ⟨⟨golang_line_M_eq ▸ golang_line_B⟩,
  (List.forall_mem_cons.mpr ⟨⟨grace_line_M_eq ▸ grace_line_B⟩,
  (List.forall_mem_cons.mpr ⟨⟨groovy_line_M_eq ▸ groovy_line_B⟩,
  (List.forall_mem_cons.mpr ⟨⟨haskell_line_M_eq ▸ haskell_line_B⟩,
  (List.forall_mem_cons.mpr ⟨⟨hx_line_M_eq ▸ hx_line_B⟩,
  (List.forall_mem_cons.mpr ⟨⟨idl_pvwave_line_M_eq ▸ idl_pvwave_line_B⟩,
  (List.forall_mem_cons.mpr ⟨⟨jam_line_M_eq ▸ jam_line_B⟩,
  (List.forall_mem_cons.mpr ⟨⟨java_line_M_eq ▸ java_line_B⟩,
  (List.forall_mem_cons.mpr ⟨⟨js_line_M_eq ▸ js_line_B⟩,
  (List.forall_mem_cons.mpr ⟨⟨js_line_M_eq ▸ js_line_B⟩,
  (List.forall_mem_cons.mpr ⟨⟨js_line_M_eq ▸ js_line_B⟩,
  (List.forall_mem_cons.mpr ⟨⟨julia_line_M_eq ▸ julia_line_B⟩,
  (List.forall_mem_cons.mpr ⟨⟨kotlin_line_M_eq ▸ kotlin_line_B⟩,
  (List.forall_mem_cons.mpr ⟨⟨limbo_line_M_eq ▸ limbo_line_B⟩,
  (List.forall_mem_cons.mpr ⟨⟨lisp_line_M_eq ▸ lisp_line_B⟩,
  (List.forall_mem_cons.mpr ⟨⟨lisp_line_M_eq ▸ lisp_line_B⟩,
  (List.forall_mem_cons.mpr ⟨⟨lisp_line_M_eq ▸ lisp_line_B⟩,
  (List.forall_mem_cons.mpr ⟨⟨lisp_line_M_eq ▸ lisp_line_B⟩,
  (List.forall_mem_cons.mpr ⟨⟨lisp_line_M_eq ▸ lisp_line_B⟩,
  (List.forall_mem_cons.mpr ⟨⟨livecode_line_M_eq ▸ livecode_line_B⟩,
  (List.forall_mem_cons.mpr ⟨⟨logtalk_line_M_eq ▸ logtalk_line_B⟩,
  (List.forall_mem_cons.mpr ⟨⟨make_line_M_eq ▸ make_line_B⟩,
  (List.forall_mem_cons.mpr ⟨⟨mathematica_line_M_eq ▸ mathematica_line_B⟩,
  (List.forall_mem_cons.mpr ⟨⟨matlab_line_M_eq ▸ matlab_line_B⟩,
  (List.forall_mem_cons.mpr ⟨⟨metafont_line_M_eq ▸ metafont_line_B⟩,
  (List.forall_mem_cons.mpr ⟨⟨metapost_line_M_eq ▸ metapost_line_B⟩,
  (List.forall_mem_cons.mpr ⟨⟨modelica_line_M_eq ▸ modelica_line_B⟩,
  (List.forall_mem_cons.mpr ⟨⟨modula2_line_M_eq ▸ modula2_line_B⟩,
  (List.forall_mem_cons.mpr ⟨⟨modula3_line_M_eq ▸ modula3_line_B⟩,
  (List.forall_mem_cons.mpr ⟨⟨nsis_line_M_eq ▸ nsis_line_B⟩,
  (List.forall_mem_cons.mpr ⟨⟨oberon_line_M_eq ▸ oberon_line_B⟩,
  (List.forall_mem_cons.mpr ⟨⟨objc_line_M_eq ▸ objc_line_B⟩,
  (List.forall_mem_cons.mpr ⟨⟨objj_line_M_eq ▸ objj_line_B⟩,
  (List.forall_mem_cons.mpr ⟨⟨ocaml_line_M_eq ▸ ocaml_line_B⟩,
  (List.forall_mem_cons.mpr ⟨⟨octave_line_M_eq ▸ octave_line_B⟩,
  (List.forall_mem_cons.mpr ⟨⟨pascal_line_M_eq ▸ pascal_line_B⟩,
  (List.forall_mem_cons.mpr ⟨⟨php_line_M_eq ▸ php_line_B⟩,
  (List.forall_mem_cons.mpr ⟨⟨pike_line_M_eq ▸ pike_line_B⟩,
  (List.forall_mem_cons.mpr ⟨⟨postscript_line_M_eq ▸ postscript_line_B⟩,
  (List.forall_mem_cons.mpr ⟨⟨powershell_line_M_eq ▸ powershell_line_B⟩,
  (List.forall_mem_cons.mpr ⟨⟨prolog_line_M_eq ▸ prolog_line_B⟩,
  (List.forall_mem_cons.mpr ⟨⟨puppet_line_M_eq ▸ puppet_line_B⟩,
  (List.forall_mem_cons.mpr ⟨⟨python_line_M_eq ▸ python_line_B⟩,
  (List.forall_mem_cons.mpr ⟨⟨r_line_M_eq ▸ r_line_B⟩,
  (List.forall_mem_cons.mpr ⟨⟨rexx_line_M_eq ▸ rexx_line_B⟩,
  (List.forall_mem_cons.mpr ⟨⟨ruby_line_M_eq ▸ ruby_line_B⟩,
  (List.forall_mem_cons.mpr ⟨⟨rust_line_M_eq ▸ rust_line_B⟩,
  (List.forall_mem_cons.mpr ⟨⟨scala_line_M_eq ▸ scala_line_B⟩,
  (List.forall_mem_cons.mpr ⟨⟨scilab_line_M_eq ▸ scilab_line_B⟩,
  (List.forall_mem_cons.mpr ⟨⟨shell_line_M_eq ▸ shell_line_B⟩,
  (List.forall_mem_cons.mpr ⟨⟨smalltalk_line_M_eq ▸ smalltalk_line_B⟩,
  (List.forall_mem_cons.mpr ⟨⟨sql_line_M_eq ▸ sql_line_B⟩,
  (List.forall_mem_cons.mpr ⟨⟨stratego_line_M_eq ▸ stratego_line_B⟩,
  (List.forall_mem_cons.mpr ⟨⟨sb_line_M_eq ▸ sb_line_B⟩,
  (List.forall_mem_cons.mpr ⟨⟨swift_line_M_eq ▸ swift_line_B⟩,
  (List.forall_mem_cons.mpr ⟨⟨tcl_line_M_eq ▸ tcl_line_B⟩,
  (List.forall_mem_cons.mpr ⟨⟨tex_line_M_eq ▸ tex_line_B⟩,
  (List.forall_mem_cons.mpr ⟨⟨tex_dtx_line_M_eq ▸ tex_dtx_line_B⟩,
  (List.forall_mem_cons.mpr ⟨⟨umple_line_M_eq ▸ umple_line_B⟩,
  (List.forall_mem_cons.mpr ⟨⟨unrealscript_line_M_eq ▸ unrealscript_line_B⟩,
  (List.forall_mem_cons.mpr ⟨⟨vhdl_line_M_eq ▸ vhdl_line_B⟩,
  (List.forall_mem_cons.mpr ⟨⟨vb_line_M_eq ▸ vb_line_B⟩,
  (List.forall_mem_cons.mpr ⟨⟨xaml_line_M_eq ▸ xaml_line_B⟩,
  (List.forall_mem_cons.mpr ⟨⟨xml_line_M_eq ▸ xml_line_B⟩,
  (List.forall_mem_cons.mpr ⟨⟨xmlschema_line_M_eq ▸ xmlschema_line_B⟩,
  (List.forall_mem_cons.mpr ⟨⟨xslt_line_M_eq ▸ xslt_line_B⟩,
  (fun _ h => nomatch h)⟩)⟩)⟩)⟩)⟩)⟩)⟩)⟩)⟩)⟩)⟩)⟩)⟩)⟩)⟩)⟩)⟩)⟩)⟩)⟩)⟩)⟩)⟩)⟩)⟩)⟩)⟩)⟩)⟩)⟩)⟩)⟩)⟩)⟩)⟩)⟩)⟩)⟩)⟩)⟩)⟩)⟩)⟩)⟩)⟩)⟩)⟩)⟩)⟩)⟩)⟩)⟩)⟩)⟩)⟩)⟩)⟩)⟩)⟩)⟩)⟩)⟩)⟩)⟩)⟩)⟩)⟩)⟩)⟩)⟩)⟩)⟩)⟩)⟩)⟩)⟩)⟩)⟩)⟩)⟩)⟩)⟩)⟩)⟩)⟩)⟩)⟩)⟩)⟩)⟩)⟩)⟩)⟩)⟩)⟩)⟩)⟩)⟩)⟩)⟩)⟩)⟩)⟩)⟩)⟩)⟩)⟩)⟩)

theorem levels_sub : ∀ x ∈ levels, x.1 ∈ parsers :=
  (List.forall_mem_cons.mpr ⟨List.mem_of_getElem? (i := 0) rfl,
  (List.forall_mem_cons.mpr ⟨List.mem_of_getElem? (i := 1) rfl,
  (List.forall_mem_cons.mpr ⟨List.mem_of_getElem? (i := 2) rfl,
  (List.forall_mem_cons.mpr ⟨List.mem_of_getElem? (i := 3) rfl,
  (List.forall_mem_cons.mpr ⟨List.mem_of_getElem? (i := 4) rfl,
  (List.forall_mem_cons.mpr ⟨List.mem_of_getElem? (i := 5) rfl,
  (List.forall_mem_cons.mpr ⟨List.mem_of_getElem? (i := 6) rfl,
  (List.forall_mem_cons.mpr ⟨List.mem_of_getElem? (i := 7) rfl,
  (List.forall_mem_cons.mpr ⟨List.mem_of_getElem? (i := 8) rfl,
  (List.forall_mem_cons.mpr ⟨List.mem_of_getElem? (i := 9) rfl,
  (List.forall_mem_cons.mpr ⟨List.mem_of_getElem? (i := 10) rfl,
  (List.forall_mem_cons.mpr ⟨List.mem_of_getElem? (i := 11) rfl,
  (List.forall_mem_cons.mpr ⟨List.mem_of_getElem? (i := 12) rfl,
  (List.forall_mem_cons.mpr ⟨List.mem_of_getElem? (i := 13) rfl,
  (List.forall_mem_cons.mpr ⟨List.mem_of_getElem? (i := 14) rfl,
  (List.forall_mem_cons.mpr ⟨List.mem_of_getElem? (i := 15) rfl,
  (List.forall_mem_cons.mpr ⟨List.mem_of_getElem? (i := 16) rfl,
  (List.forall_mem_cons.mpr ⟨List.mem_of_getElem? (i := 17) rfl,
  (List.forall_mem_cons.mpr ⟨List.mem_of_getElem? (i := 18) rfl,
  (List.forall_mem_cons.mpr ⟨List.mem_of_getElem? (i := 19) rfl,
  (List.forall_mem_cons.mpr ⟨List.mem_of_getElem? (i := 20) rfl,
  (List.forall_mem_cons.mpr ⟨List.mem_of_getElem? (i := 21) rfl,
  (List.forall_mem_cons.mpr ⟨List.mem_of_getElem? (i := 22) rfl,
  (List.forall_mem_cons.mpr ⟨List.mem_of_getElem? (i := 23) rfl,
  (List.forall_mem_cons.mpr ⟨List.mem_of_getElem? (i := 24) rfl,
  (List.forall_mem_cons.mpr ⟨List.mem_of_getElem? (i := 25) rfl,
  (List.forall_mem_cons.mpr ⟨List.mem_of_getElem? (i := 26) rfl,
  (List.forall_mem_cons.mpr ⟨List.mem_of_getElem? (i := 27) rfl,
  (List.forall_mem_cons.mpr ⟨List.mem_of_getElem? (i := 28) rfl,
  (List.forall_mem_cons.mpr ⟨List.mem_of_getElem? (i := 29) rfl,
  (List.forall_mem_cons.mpr ⟨List.mem_of_getElem? (i := 30) rfl,
  (List.forall_mem_cons.mpr ⟨List.mem_of_getElem? (i := 31) rfl,
  (List.forall_mem_cons.mpr ⟨List.mem_of_getElem? (i := 32) rfl,
  (List.forall_mem_cons.mpr ⟨List.mem_of_getElem? (i := 33) rfl,
  (List.forall_mem_cons.mpr ⟨List.mem_of_getElem? (i := 34) rfl,
  (List.forall_mem_cons.mpr ⟨List.mem_of_getElem? (i := 35) rfl,
  (List.forall_mem_cons.mpr ⟨List.mem_of_getElem? (i := 36) rfl,
  (List.forall_mem_cons.mpr ⟨List.mem_of_getElem? (i := 37) rfl,
  (List.forall_mem_cons.mpr ⟨List.mem_of_getElem? (i := 38) rfl,
  (List.forall_mem_cons.mpr ⟨List.mem_of_getElem? (i := 39) rfl,
  (List.forall_mem_cons.mpr ⟨List.mem_of_getElem? (i := 40) rfl,
  (List.forall_mem_cons.mpr ⟨List.mem_of_getElem? (i := 41) rfl,
  (List.forall_mem_cons.mpr ⟨List.mem_of_getElem? (i := 42) rfl,
  (List.forall_mem_cons.mpr ⟨List.mem_of_getElem? (i := 43) rfl,
  (List.forall_mem_cons.mpr ⟨List.mem_of_getElem? (i := 44) rfl,
  (List.forall_mem_cons.mpr ⟨List.mem_of_getElem? (i := 45) rfl,
  (List.forall_mem_cons.mpr ⟨List.mem_of_getElem? (i := 46) rfl,
  (List.forall_mem_cons.mpr ⟨List.mem_of_getElem? (i := 47) rfl,
  (List.forall_mem_cons.mpr ⟨List.mem_of_getElem? (i := 48) rfl,
  (List.forall_mem_cons.mpr ⟨List.mem_of_getElem? (i := 49) rfl,
  (List.forall_mem_cons.mpr ⟨List.mem_of_getElem? (i := 50) rfl,
  (List.forall_mem_cons.mpr ⟨List.mem_of_getElem? (i := 51) rfl,
  (List.forall_mem_cons.mpr ⟨List.mem_of_getElem? (i := 52) rfl,
  (List.forall_mem_cons.mpr ⟨List.mem_of_getElem? (i := 53) rfl,
  (List.forall_mem_cons.mpr ⟨List.mem_of_getElem? (i := 54) rfl,
  (List.forall_mem_cons.mpr ⟨List.mem_of_getElem? (i := 55) rfl,
  (List.forall_mem_cons.mpr ⟨List.mem_of_getElem? (i := 56) rfl,
  (List.forall_mem_cons.mpr ⟨List.mem_of_getElem? (i := 57) rfl,
  (List.forall_mem_cons.mpr ⟨List.mem_of_getElem? (i := 58) rfl,
  (List.forall_mem_cons.mpr ⟨List.mem_of_getElem? (i := 59) rfl,
  (List.forall_mem_cons.mpr ⟨List.mem_of_getElem? (i := 60) rfl,
  (List.forall_mem_cons.mpr ⟨List.mem_of_getElem? (i := 61) rfl,
  (List.forall_mem_cons.mpr ⟨List.mem_of_getElem? (i := 62) rfl,
  (List.forall_mem_cons.mpr ⟨List.mem_of_getElem? (i := 64) rfl,
  (List.forall_mem_cons.mpr ⟨List.mem_of_getElem? (i := 65) rfl,
  (List.forall_mem_cons.mpr ⟨List.mem_of_getElem? (i := 66) rfl,
  (List.forall_mem_cons.mpr ⟨List.mem_of_getElem? (i := 67) rfl,
  (List.forall_mem_cons.mpr ⟨List.mem_of_getElem? (i := 68) rfl,
  (List.forall_mem_cons.mpr ⟨List.mem_of_getElem? (i := 69) rfl,
  (List.forall_mem_cons.mpr ⟨List.mem_of_getElem? (i := 70) rfl,
  (List.forall_mem_cons.mpr ⟨List.mem_of_getElem? (i := 71) rfl,
  (List.forall_mem_cons.mpr ⟨List.mem_of_getElem? (i := 72) rfl,
  (List.forall_mem_cons.mpr ⟨List.mem_of_getElem? (i := 73) rfl,
  (List.forall_mem_cons.mpr ⟨List.mem_of_getElem? (i := 74) rfl,
  (List.forall_mem_cons.mpr ⟨List.mem_of_getElem? (i := 75) rfl,
  (List.forall_mem_cons.mpr ⟨List.mem_of_getElem? (i := 76) rfl,
  (List.forall_mem_cons.mpr ⟨List.mem_of_getElem? (i := 77) rfl,
  (List.forall_mem_cons.mpr ⟨List.mem_of_getElem? (i := 78) rfl,
  (List.forall_mem_cons.mpr ⟨List.mem_of_getElem? (i := 79) rfl,
  (List.forall_mem_cons.mpr ⟨List.mem_of_getElem? (i := 80) rfl,
  (List.forall_mem_cons.mpr ⟨List.mem_of_getElem? (i := 81) rfl,
  (List.forall_mem_cons.mpr ⟨List.mem_of_getElem? (i := 82) rfl,
  (List.forall_mem_cons.mpr ⟨List.mem_of_getElem? (i := 83) rfl,
  (List.forall_mem_cons.mpr ⟨List.mem_of_getElem? (i := 84) rfl,
  (List.forall_mem_cons.mpr ⟨List.mem_of_getElem? (i := 85) rfl,
  (List.forall_mem_cons.mpr ⟨List.mem_of_getElem? (i := 86) rfl,
  (List.forall_mem_cons.mpr ⟨List.mem_of_getElem? (i := 88) rfl,
  (List.forall_mem_cons.mpr ⟨List.mem_of_getElem? (i := 89) rfl,
  (List.forall_mem_cons.mpr ⟨List.mem_of_getElem? (i := 90) rfl,
  (List.forall_mem_cons.mpr ⟨List.mem_of_getElem? (i := 91) rfl,
  (List.forall_mem_cons.mpr ⟨List.mem_of_getElem? (i := 92) rfl,
  (List.forall_mem_cons.mpr ⟨List.mem_of_getElem? (i := 93) rfl,
  (List.forall_mem_cons.mpr ⟨List.mem_of_getElem? (i := 94) rfl,
  (List.forall_mem_cons.mpr ⟨List.mem_of_getElem? (i := 95) rfl,
  (List.forall_mem_cons.mpr ⟨List.mem_of_getElem? (i := 96) rfl,
  (List.forall_mem_cons.mpr ⟨List.mem_of_getElem? (i := 97) rfl,
  (List.forall_mem_cons.mpr ⟨List.mem_of_getElem? (i := 98) rfl,
  (List.forall_mem_cons.mpr ⟨List.mem_of_getElem? (i := 99) rfl,
  (List.forall_mem_cons.mpr ⟨List.mem_of_getElem? (i := 100) rfl,
  (List.forall_mem_cons.mpr ⟨List.mem_of_getElem? (i := 101) rfl,
  (List.forall_mem_cons.mpr ⟨List.mem_of_getElem? (i := 102) rfl,
  (List.forall_mem_cons.mpr ⟨List.mem_of_getElem? (i := 103) rfl,
  (List.forall_mem_cons.mpr ⟨List.mem_of_getElem? (i := 104) rfl,
  (List.forall_mem_cons.mpr ⟨List.mem_of_getElem? (i := 106) rfl,
  (List.forall_mem_cons.mpr ⟨List.mem_of_getElem? (i := 107) rfl,
  (List.forall_mem_cons.mpr ⟨List.mem_of_getElem? (i := 108) rfl,
  (List.forall_mem_cons.mpr ⟨List.mem_of_getElem? (i := 109) rfl,
  (List.forall_mem_cons.mpr ⟨List.mem_of_getElem? (i := 110) rfl,
  (fun _ h => nomatch h)⟩)⟩)⟩)⟩)⟩)⟩)⟩)⟩)⟩)⟩)⟩)⟩)⟩)⟩)⟩)⟩)⟩)⟩)⟩)⟩)⟩)⟩)⟩)⟩)⟩)⟩)⟩)⟩)⟩)⟩)⟩)⟩)⟩)⟩)⟩)⟩)⟩)⟩)⟩)⟩)⟩)⟩)⟩)⟩)⟩)⟩)⟩)⟩)⟩)⟩)⟩)⟩)⟩)⟩)⟩)⟩)⟩)⟩)⟩)⟩)⟩)⟩)⟩)⟩)⟩)⟩)⟩)⟩)⟩)⟩)⟩)⟩)⟩)⟩)⟩)⟩)⟩)⟩)⟩)⟩)⟩)⟩)⟩)⟩)⟩)⟩)⟩)⟩)⟩)⟩)⟩)⟩)⟩)⟩)⟩)⟩)⟩)⟩)⟩)⟩)⟩)⟩)⟩)⟩)⟩)⟩)⟩)⟩)

/-- Parsers whose scanners never go back over a line end and report every line end they pass. -/
def lineOriented : List Parser := [
  parse_ada, parse_automake, parse_awk, parse_bat, parse_brainfuck, parse_classic_basic, parse_clearsilver, parse_ebuild, parse_eiffel, parse_erlang, parse_exheres, parse_fortranfixed, parse_idl_pvwave, parse_limbo, parse_makefile, parse_metafont, parse_metapost, parse_postscript, parse_r, parse_scilab, parse_structured_basic, parse_tex, parse_tex_dtx, parse_vhdl, parse_visual_basic]

theorem lineOriented_cert : ∀ P ∈ lineOriented, Nonempty (BCert ⟨true, true, false, false⟩ P.line.machine) :=
  (List.forall_mem_cons.mpr ⟨⟨ada_line_M_eq ▸ ada_line_B⟩,
  (List.forall_mem_cons.mpr ⟨⟨am_line_M_eq ▸ am_line_B⟩,
  (List.forall_mem_cons.mpr ⟨⟨awk_line_M_eq ▸ awk_line_B⟩,
  (List.forall_mem_cons.mpr ⟨⟨bat_line_M_eq ▸ bat_line_B⟩,
  (List.forall_mem_cons.mpr ⟨⟨brainfuck_line_M_eq ▸ brainfuck_line_B⟩,
  (List.forall_mem_cons.mpr ⟨⟨cb_line_M_eq ▸ cb_line_B⟩,
  (List.forall_mem_cons.mpr ⟨⟨cs_line_M_eq ▸ cs_line_B⟩,
  (List.forall_mem_cons.mpr ⟨⟨ebuild_line_M_eq ▸ ebuild_line_B⟩,
  (List.forall_mem_cons.mpr ⟨⟨eiffel_line_M_eq ▸ eiffel_line_B⟩,
  (List.forall_mem_cons.mpr ⟨⟨erlang_line_M_eq ▸ erlang_line_B⟩,
  (List.forall_mem_cons.mpr ⟨⟨exheres_line_M_eq ▸ exheres_line_B⟩,
  (List.forall_mem_cons.mpr ⟨⟨ffixed_line_M_eq ▸ ffixed_line_B⟩,
  (List.forall_mem_cons.mpr ⟨⟨idl_pvwave_line_M_eq ▸ idl_pvwave_line_B⟩,
  (List.forall_mem_cons.mpr ⟨⟨limbo_line_M_eq ▸ limbo_line_B⟩,
  (List.forall_mem_cons.mpr ⟨⟨make_line_M_eq ▸ make_line_B⟩,
  (List.forall_mem_cons.mpr ⟨⟨metafont_line_M_eq ▸ metafont_line_B⟩,
  (List.forall_mem_cons.mpr ⟨⟨metapost_line_M_eq ▸ metapost_line_B⟩,
  (List.forall_mem_cons.mpr ⟨⟨postscript_line_M_eq ▸ postscript_line_B⟩,
  (List.forall_mem_cons.mpr ⟨⟨r_line_M_eq ▸ r_line_B⟩,
  (List.forall_mem_cons.mpr ⟨⟨scilab_line_M_eq ▸ scilab_line_B⟩,
  (List.forall_mem_cons.mpr ⟨⟨sb_line_M_eq ▸ sb_line_B⟩,
  (List.forall_mem_cons.mpr ⟨⟨tex_line_M_eq ▸ tex_line_B⟩,
  (List.forall_mem_cons.mpr ⟨⟨tex_dtx_line_M_eq ▸ tex_dtx_line_B⟩,
  (List.forall_mem_cons.mpr ⟨⟨vhdl_line_M_eq ▸ vhdl_line_B⟩,
  (List.forall_mem_cons.mpr ⟨⟨vb_line_M_eq ▸ vb_line_B⟩,
  (fun _ h => nomatch h)⟩)⟩)⟩)⟩)⟩)⟩)⟩)⟩)⟩)⟩)⟩)⟩)⟩)⟩)⟩)⟩)⟩)⟩)⟩)⟩)⟩)⟩)⟩)⟩)⟩)

theorem lineOriented_sub : ∀ P ∈ lineOriented, P ∈ parsers :=
  (List.forall_mem_cons.mpr ⟨List.mem_of_getElem? (i := 1) rfl,
  (List.forall_mem_cons.mpr ⟨List.mem_of_getElem? (i := 6) rfl,
  (List.forall_mem_cons.mpr ⟨List.mem_of_getElem? (i := 7) rfl,
  (List.forall_mem_cons.mpr ⟨List.mem_of_getElem? (i := 8) rfl,
  (List.forall_mem_cons.mpr ⟨List.mem_of_getElem? (i := 12) rfl,
  (List.forall_mem_cons.mpr ⟨List.mem_of_getElem? (i := 21) rfl,
  (List.forall_mem_cons.mpr ⟨List.mem_of_getElem? (i := 22) rfl,
  (List.forall_mem_cons.mpr ⟨List.mem_of_getElem? (i := 31) rfl,
  (List.forall_mem_cons.mpr ⟨List.mem_of_getElem? (i := 32) rfl,
  (List.forall_mem_cons.mpr ⟨List.mem_of_getElem? (i := 34) rfl,
  (List.forall_mem_cons.mpr ⟨List.mem_of_getElem? (i := 35) rfl,
  (List.forall_mem_cons.mpr ⟨List.mem_of_getElem? (i := 38) rfl,
  (List.forall_mem_cons.mpr ⟨List.mem_of_getElem? (i := 47) rfl,
  (List.forall_mem_cons.mpr ⟨List.mem_of_getElem? (i := 55) rfl,
  (List.forall_mem_cons.mpr ⟨List.mem_of_getElem? (i := 64) rfl,
  (List.forall_mem_cons.mpr ⟨List.mem_of_getElem? (i := 67) rfl,
  (List.forall_mem_cons.mpr ⟨List.mem_of_getElem? (i := 68) rfl,
  (List.forall_mem_cons.mpr ⟨List.mem_of_getElem? (i := 81) rfl,
  (List.forall_mem_cons.mpr ⟨List.mem_of_getElem? (i := 86) rfl,
  (List.forall_mem_cons.mpr ⟨List.mem_of_getElem? (i := 92) rfl,
  (List.forall_mem_cons.mpr ⟨List.mem_of_getElem? (i := 97) rfl,
  (List.forall_mem_cons.mpr ⟨List.mem_of_getElem? (i := 100) rfl,
  (List.forall_mem_cons.mpr ⟨List.mem_of_getElem? (i := 101) rfl,
  (List.forall_mem_cons.mpr ⟨List.mem_of_getElem? (i := 104) rfl,
  (List.forall_mem_cons.mpr ⟨List.mem_of_getElem? (i := 106) rfl,
  (fun _ h => nomatch h)⟩)⟩)⟩)⟩)⟩)⟩)⟩)⟩)⟩)⟩)⟩)⟩)⟩)⟩)⟩)⟩)⟩)⟩)⟩)⟩)⟩)⟩)⟩)⟩)⟩)

/-- Parsers for which that can only fail by going back over a line end, when a construct is not closed. -/
def closable : List Parser := [
  parse_actionscript, parse_ampl, parse_assembler, parse_augeas, parse_blitzmax, parse_boo, parse_cmake, parse_crystal, parse_dart, parse_dylan, parse_haxe, parse_java, parse_julia, parse_livecode, parse_logtalk, parse_matlab, parse_modula2, parse_nsis, parse_oberon, parse_objective_c, parse_objective_j, parse_ocaml, parse_octave, parse_pike, parse_prolog, parse_python, parse_rexx, parse_ruby, parse_scala, parse_swift, parse_umple, parse_xaml, parse_xml, parse_xmlschema, parse_xslt]

theorem closable_cert : ∀ P ∈ closable, Nonempty (BCert ⟨true, true, true, false⟩ P.line.machine) :=
  (List.forall_mem_cons.mpr ⟨⟨as_line_M_eq ▸ as_line_B⟩,
  (List.forall_mem_cons.mpr ⟨⟨ampl_line_M_eq ▸ ampl_line_B⟩,
  (List.forall_mem_cons.mpr ⟨⟨asm_line_M_eq ▸ asm_line_B⟩,
  (List.forall_mem_cons.mpr ⟨⟨augeas_line_M_eq ▸ augeas_line_B⟩,
  (List.forall_mem_cons.mpr ⟨⟨blitzmax_line_M_eq ▸ blitzmax_line_B⟩,
  (List.forall_mem_cons.mpr ⟨⟨boo_line_M_eq ▸ boo_line_B⟩,
  (List.forall_mem_cons.mpr ⟨⟨cmake_line_M_eq ▸ cmake_line_B⟩,
  (List.forall_mem_cons.mpr ⟨⟨crystal_line_M_eq ▸ crystal_line_B⟩,
  (List.forall_mem_cons.mpr ⟨⟨dart_line_M_eq ▸ dart_line_B⟩,
  (List.forall_mem_cons.mpr ⟨⟨dylan_line_M_eq ▸ dylan_line_B⟩,
  (List.forall_mem_cons.mpr ⟨⟨hx_line_M_eq ▸ hx_line_B⟩,
  (List.forall_mem_cons.mpr ⟨⟨java_line_M_eq ▸ java_line_B⟩,
  (List.forall_mem_cons.mpr ⟨⟨julia_line_M_eq ▸ julia_line_B⟩,
  (List.forall_mem_cons.mpr ⟨⟨livecode_line_M_eq ▸ livecode_line_B⟩,
  (List.forall_mem_cons.mpr ⟨⟨logtalk_line_M_eq ▸ logtalk_line_B⟩,
  (List.forall_mem_cons.mpr ⟨⟨matlab_line_M_eq ▸ matlab_line_B⟩,
  (List.forall_mem_cons.mpr ⟨⟨modula2_line_M_eq ▸ modula2_line_B⟩,
  (List.forall_mem_cons.mpr ⟨⟨nsis_line_M_eq ▸ nsis_line_B⟩,
  (List.forall_mem_cons.mpr ⟨⟨oberon_line_M_eq ▸ oberon_line_B⟩,
  (List.forall_mem_cons.mpr ⟨⟨objc_line_M_eq ▸ objc_line_B⟩,
  (List.forall_mem_cons.mpr ⟨⟨objj_line_M_eq ▸ objj_line_B⟩,
  (List.forall_mem_cons.mpr ⟨⟨ocaml_line_M_eq ▸ ocaml_line_B⟩,
  (List.forall_mem_cons.mpr ⟨⟨octave_line_M_eq ▸ octave_line_B⟩,
  (List.forall_mem_cons.mpr ⟨⟨pike_line_M_eq ▸ pike_line_B⟩,
  (List.forall_mem_cons.mpr ⟨⟨prolog_line_M_eq ▸ prolog_line_B⟩,
  (List.forall_mem_cons.mpr ⟨⟨python_line_M_eq ▸ python_line_B⟩,
  (List.forall_mem_cons.mpr ⟨⟨rexx_line_M_eq ▸ rexx_line_B⟩,
  (List.forall_mem_cons.mpr ⟨⟨ruby_line_M_eq ▸ ruby_line_B⟩,
  (List.forall_mem_cons.mpr ⟨⟨scala_line_M_eq ▸ scala_line_B⟩,
  (List.forall_mem_cons.mpr ⟨⟨swift_line_M_eq ▸ swift_line_B⟩,
  (List.forall_mem_cons.mpr ⟨⟨umple_line_M_eq ▸ umple_line_B⟩,
  (List.forall_mem_cons.mpr ⟨⟨xaml_line_M_eq ▸ xaml_line_B⟩,
  (List.forall_mem_cons.mpr ⟨⟨xml_line_M_eq ▸ xml_line_B⟩,
  (List.forall_mem_cons.mpr ⟨⟨xmlschema_line_M_eq ▸ xmlschema_line_B⟩,
  (List.forall_mem_cons.mpr ⟨⟨xslt_line_M_eq ▸ xslt_line_B⟩,
  (fun _ h => nomatch h)⟩)⟩)⟩)⟩)⟩)⟩)⟩)⟩)⟩)⟩)⟩)⟩)⟩)⟩)⟩)⟩)⟩)⟩)⟩)⟩)⟩)⟩)⟩)⟩)⟩)⟩)⟩)⟩)⟩)⟩)⟩)⟩)⟩)⟩)⟩)

theorem closable_sub : ∀ P ∈ closable, P ∈ parsers :=
  (List.forall_mem_cons.mpr ⟨List.mem_of_getElem? (i := 0) rfl,
  (List.forall_mem_cons.mpr ⟨List.mem_of_getElem? (i := 2) rfl,
  (List.forall_mem_cons.mpr ⟨List.mem_of_getElem? (i := 3) rfl,
  (List.forall_mem_cons.mpr ⟨List.mem_of_getElem? (i := 4) rfl,
  (List.forall_mem_cons.mpr ⟨List.mem_of_getElem? (i := 10) rfl,
  (List.forall_mem_cons.mpr ⟨List.mem_of_getElem? (i := 11) rfl,
  (List.forall_mem_cons.mpr ⟨List.mem_of_getElem? (i := 23) rfl,
  (List.forall_mem_cons.mpr ⟨List.mem_of_getElem? (i := 25) rfl,
  (List.forall_mem_cons.mpr ⟨List.mem_of_getElem? (i := 28) rfl,
  (List.forall_mem_cons.mpr ⟨List.mem_of_getElem? (i := 30) rfl,
  (List.forall_mem_cons.mpr ⟨List.mem_of_getElem? (i := 46) rfl,
  (List.forall_mem_cons.mpr ⟨List.mem_of_getElem? (i := 49) rfl,
  (List.forall_mem_cons.mpr ⟨List.mem_of_getElem? (i := 53) rfl,
  (List.forall_mem_cons.mpr ⟨List.mem_of_getElem? (i := 61) rfl,
  (List.forall_mem_cons.mpr ⟨List.mem_of_getElem? (i := 62) rfl,
  (List.forall_mem_cons.mpr ⟨List.mem_of_getElem? (i := 66) rfl,
  (List.forall_mem_cons.mpr ⟨List.mem_of_getElem? (i := 70) rfl,
  (List.forall_mem_cons.mpr ⟨List.mem_of_getElem? (i := 72) rfl,
  (List.forall_mem_cons.mpr ⟨List.mem_of_getElem? (i := 73) rfl,
  (List.forall_mem_cons.mpr ⟨List.mem_of_getElem? (i := 74) rfl,
  (List.forall_mem_cons.mpr ⟨List.mem_of_getElem? (i := 75) rfl,
  (List.forall_mem_cons.mpr ⟨List.mem_of_getElem? (i := 76) rfl,
  (List.forall_mem_cons.mpr ⟨List.mem_of_getElem? (i := 77) rfl,
  (List.forall_mem_cons.mpr ⟨List.mem_of_getElem? (i := 80) rfl,
  (List.forall_mem_cons.mpr ⟨List.mem_of_getElem? (i := 83) rfl,
  (List.forall_mem_cons.mpr ⟨List.mem_of_getElem? (i := 85) rfl,
  (List.forall_mem_cons.mpr ⟨List.mem_of_getElem? (i := 88) rfl,
  (List.forall_mem_cons.mpr ⟨List.mem_of_getElem? (i := 89) rfl,
  (List.forall_mem_cons.mpr ⟨List.mem_of_getElem? (i := 91) rfl,
  (List.forall_mem_cons.mpr ⟨List.mem_of_getElem? (i := 98) rfl,
  (List.forall_mem_cons.mpr ⟨List.mem_of_getElem? (i := 102) rfl,
  (List.forall_mem_cons.mpr ⟨List.mem_of_getElem? (i := 107) rfl,
  (List.forall_mem_cons.mpr ⟨List.mem_of_getElem? (i := 108) rfl,
  (List.forall_mem_cons.mpr ⟨List.mem_of_getElem? (i := 109) rfl,
  (List.forall_mem_cons.mpr ⟨List.mem_of_getElem? (i := 110) rfl,
  (fun _ h => nomatch h)⟩)⟩)⟩)⟩)⟩)⟩)⟩)⟩)⟩)⟩)⟩)⟩)⟩)⟩)⟩)⟩)⟩)⟩)⟩)⟩)⟩)⟩)⟩)⟩)⟩)⟩)⟩)⟩)⟩)⟩)⟩)⟩)⟩)⟩)⟩)

/-- Parsers and the comments and strings of their language. -/
def classified : List (Parser × Lexis) := [
  (parse_ada, LexisTable.ada_line),
  (parse_ampl, LexisTable.ampl_line),
  (parse_assembler, LexisTable.asm_line),
  (parse_automake, LexisTable.am_line),
  (parse_awk, LexisTable.awk_line),
  (parse_bat, LexisTable.bat_line),
  (parse_c, LexisTable.c_line),
  (parse_cpp, LexisTable.c_line),
  (parse_csharp, LexisTable.c_line),
  (parse_vala, LexisTable.c_line),
  (parse_genie, LexisTable.c_line),
  (parse_cuda, LexisTable.c_line),
  (parse_ec, LexisTable.c_line),
  (parse_clearsilver, LexisTable.cs_line),
  (parse_cmake, LexisTable.cmake_line),
  (parse_css, LexisTable.css_line),
  (parse_dart, LexisTable.dart_line),
  (parse_dylan, LexisTable.dylan_line),
  (parse_ebuild, LexisTable.ebuild_line),
  (parse_eiffel, LexisTable.eiffel_line),
  (parse_erlang, LexisTable.erlang_line),
  (parse_exheres, LexisTable.exheres_line),
  (parse_factor, LexisTable.factor_line),
  (parse_forth, LexisTable.forth_line),
  (parse_fortranfixed, LexisTable.ffixed_line),
  (parse_fortranfree, LexisTable.ffree_line),
  (parse_fsharp, LexisTable.fsharp_line),
  (parse_glsl, LexisTable.glsl_line),
  (parse_golang, LexisTable.golang_line),
  (parse_grace, LexisTable.grace_line),
  (parse_groovy, LexisTable.groovy_line),
  (parse_haxe, LexisTable.hx_line),
  (parse_idl_pvwave, LexisTable.idl_pvwave_line),
  (parse_jam, LexisTable.jam_line),
  (parse_java, LexisTable.java_line),
  (parse_livecode, LexisTable.livecode_line),
  (parse_logtalk, LexisTable.logtalk_line),
  (parse_makefile, LexisTable.make_line),
  (parse_metafont, LexisTable.metafont_line),
  (parse_metapost, LexisTable.metapost_line),
  (parse_objective_c, LexisTable.objc_line),
  (parse_objective_j, LexisTable.objj_line),
  (parse_pascal, LexisTable.pascal_line),
  (parse_php, LexisTable.php_line),
  (parse_pike, LexisTable.pike_line),
  (parse_postscript, LexisTable.postscript_line),
  (parse_powershell, LexisTable.powershell_line),
  (parse_prolog, LexisTable.prolog_line),
  (parse_puppet, LexisTable.puppet_line),
  (parse_r, LexisTable.r_line),
  (parse_rust, LexisTable.rust_line),
  (parse_scala, LexisTable.scala_line),
  (parse_scilab, LexisTable.scilab_line),
  (parse_shell, LexisTable.shell_line),
  (parse_smalltalk, LexisTable.smalltalk_line),
  (parse_sql, LexisTable.sql_line),
  (parse_structured_basic, LexisTable.sb_line),
  (parse_swift, LexisTable.swift_line),
  (parse_tcl, LexisTable.tcl_line),
  (parse_tex, LexisTable.tex_line),
  (parse_tex_dtx, LexisTable.tex_dtx_line),
  (parse_umple, LexisTable.umple_line),
  (parse_unrealscript, LexisTable.unrealscript_line),
  (parse_vhdl, LexisTable.vhdl_line),
  (parse_visual_basic, LexisTable.vb_line)]
theorem ada_line_classified : Classified LexisTable.ada_line ada_line_M := ⟨_, ada_line_S, ada_line_B, ada_line_L, (fun h => nomatch h)⟩
theorem ampl_line_classified : Classified LexisTable.ampl_line ampl_line_M := ⟨_, ampl_line_S, ampl_line_B, ampl_line_L, (fun h => nomatch h)⟩
theorem asm_line_classified : Classified LexisTable.asm_line asm_line_M := ⟨_, asm_line_S, asm_line_B, asm_line_L, (fun h => nomatch h)⟩
theorem am_line_classified : Classified LexisTable.am_line am_line_M := ⟨_, am_line_S, am_line_B, am_line_L, (fun h => nomatch h)⟩
theorem awk_line_classified : Classified LexisTable.awk_line awk_line_M := ⟨_, awk_line_S, awk_line_B, awk_line_L, (fun h => nomatch h)⟩
theorem bat_line_classified : Classified LexisTable.bat_line bat_line_M := ⟨_, bat_line_S, bat_line_B, bat_line_L, (fun h => nomatch h)⟩
theorem c_line_classified : Classified LexisTable.c_line c_line_M := ⟨_, c_line_S, c_line_B, c_line_L, (fun _ => c_line_L_chk)⟩
theorem c_line_strict_classified : Classified LexisTable.c_line_strict c_line_M := ⟨_, c_line_S, c_line_B, c_line_strict_L, (fun _ => c_line_strict_L_chk)⟩
theorem cs_line_classified : Classified LexisTable.cs_line cs_line_M := ⟨_, cs_line_S, cs_line_B, cs_line_L, (fun h => nomatch h)⟩
theorem cmake_line_classified : Classified LexisTable.cmake_line cmake_line_M := ⟨_, cmake_line_S, cmake_line_B, cmake_line_L, (fun h => nomatch h)⟩
theorem css_line_classified : Classified LexisTable.css_line css_line_M := ⟨_, css_line_S, css_line_B, css_line_L, (fun h => nomatch h)⟩
theorem dart_line_classified : Classified LexisTable.dart_line dart_line_M := ⟨_, dart_line_S, dart_line_B, dart_line_L, (fun h => nomatch h)⟩
theorem dylan_line_classified : Classified LexisTable.dylan_line dylan_line_M := ⟨_, dylan_line_S, dylan_line_B, dylan_line_L, (fun h => nomatch h)⟩
theorem ebuild_line_classified : Classified LexisTable.ebuild_line ebuild_line_M := ⟨_, ebuild_line_S, ebuild_line_B, am_line_L, (fun h => nomatch h)⟩
theorem eiffel_line_classified : Classified LexisTable.eiffel_line eiffel_line_M := ⟨_, eiffel_line_S, eiffel_line_B, ada_line_L, (fun h => nomatch h)⟩
theorem erlang_line_classified : Classified LexisTable.erlang_line erlang_line_M := ⟨_, erlang_line_S, erlang_line_B, erlang_line_L, (fun h => nomatch h)⟩
theorem exheres_line_classified : Classified LexisTable.exheres_line exheres_line_M := ⟨_, exheres_line_S, exheres_line_B, am_line_L, (fun h => nomatch h)⟩
theorem factor_line_classified : Classified LexisTable.factor_line factor_line_M := ⟨_, factor_line_S, factor_line_B, factor_line_L, (fun h => nomatch h)⟩
theorem forth_line_classified : Classified LexisTable.forth_line forth_line_M := ⟨_, forth_line_S, forth_line_B, forth_line_L, (fun h => nomatch h)⟩
theorem ffixed_line_classified : Classified LexisTable.ffixed_line ffixed_line_M := ⟨_, ffixed_line_S, ffixed_line_B, ffixed_line_L, (fun h => nomatch h)⟩
theorem ffree_line_classified : Classified LexisTable.ffree_line ffree_line_M := ⟨_, ffree_line_S, ffree_line_B, ffree_line_L, (fun h => nomatch h)⟩
theorem fsharp_line_classified : Classified LexisTable.fsharp_line fsharp_line_M := ⟨_, fsharp_line_S, fsharp_line_B, fsharp_line_L, (fun _ => fsharp_line_L_chk)⟩
theorem glsl_line_classified : Classified LexisTable.glsl_line glsl_line_M := ⟨_, glsl_line_S, glsl_line_B, c_line_L, (fun _ => c_line_L_chk)⟩
theorem golang_line_classified : Classified LexisTable.golang_line golang_line_M := ⟨_, golang_line_S, golang_line_B, c_line_L, (fun _ => c_line_L_chk)⟩
theorem grace_line_classified : Classified LexisTable.grace_line grace_line_M := ⟨_, grace_line_S, grace_line_B, grace_line_L, (fun h => nomatch h)⟩
theorem groovy_line_classified : Classified LexisTable.groovy_line groovy_line_M := ⟨_, groovy_line_S, groovy_line_B, groovy_line_L, (fun _ => groovy_line_L_chk)⟩
theorem hx_line_classified : Classified LexisTable.hx_line hx_line_M := ⟨_, hx_line_S, hx_line_B, hx_line_L, (fun h => nomatch h)⟩
theorem idl_pvwave_line_classified : Classified LexisTable.idl_pvwave_line idl_pvwave_line_M := ⟨_, idl_pvwave_line_S, idl_pvwave_line_B, idl_pvwave_line_L, (fun h => nomatch h)⟩
theorem jam_line_classified : Classified LexisTable.jam_line jam_line_M := ⟨_, jam_line_S, jam_line_B, jam_line_L, (fun h => nomatch h)⟩
theorem java_line_classified : Classified LexisTable.java_line java_line_M := ⟨_, java_line_S, java_line_B, java_line_L, (fun h => nomatch h)⟩
theorem livecode_line_classified : Classified LexisTable.livecode_line livecode_line_M := ⟨_, livecode_line_S, livecode_line_B, livecode_line_L, (fun h => nomatch h)⟩
theorem logtalk_line_classified : Classified LexisTable.logtalk_line logtalk_line_M := ⟨_, logtalk_line_S, logtalk_line_B, logtalk_line_L, (fun h => nomatch h)⟩
theorem make_line_classified : Classified LexisTable.make_line make_line_M := ⟨_, make_line_S, make_line_B, am_line_L, (fun h => nomatch h)⟩
theorem metafont_line_classified : Classified LexisTable.metafont_line metafont_line_M := ⟨_, metafont_line_S, metafont_line_B, metafont_line_L, (fun h => nomatch h)⟩
theorem metapost_line_classified : Classified LexisTable.metapost_line metapost_line_M := ⟨_, metapost_line_S, metapost_line_B, metafont_line_L, (fun h => nomatch h)⟩
theorem objc_line_classified : Classified LexisTable.objc_line objc_line_M := ⟨_, objc_line_S, objc_line_B, hx_line_L, (fun h => nomatch h)⟩
theorem objj_line_classified : Classified LexisTable.objj_line objj_line_M := ⟨_, objj_line_S, objj_line_B, hx_line_L, (fun h => nomatch h)⟩
theorem pascal_line_classified : Classified LexisTable.pascal_line pascal_line_M := ⟨_, pascal_line_S, pascal_line_B, pascal_line_L, (fun h => nomatch h)⟩
theorem php_line_classified : Classified LexisTable.php_line php_line_M := ⟨_, php_line_S, php_line_B, php_line_L, (fun h => nomatch h)⟩
theorem pike_line_classified : Classified LexisTable.pike_line pike_line_M := ⟨_, pike_line_S, pike_line_B, pike_line_L, (fun h => nomatch h)⟩
theorem postscript_line_classified : Classified LexisTable.postscript_line postscript_line_M := ⟨_, postscript_line_S, postscript_line_B, postscript_line_L, (fun h => nomatch h)⟩
theorem powershell_line_classified : Classified LexisTable.powershell_line powershell_line_M := ⟨_, powershell_line_S, powershell_line_B, powershell_line_L, (fun h => nomatch h)⟩
theorem prolog_line_classified : Classified LexisTable.prolog_line prolog_line_M := ⟨_, prolog_line_S, prolog_line_B, logtalk_line_L, (fun h => nomatch h)⟩
theorem puppet_line_classified : Classified LexisTable.puppet_line puppet_line_M := ⟨_, puppet_line_S, puppet_line_B, puppet_line_L, (fun h => nomatch h)⟩
theorem r_line_classified : Classified LexisTable.r_line r_line_M := ⟨_, r_line_S, r_line_B, am_line_L, (fun h => nomatch h)⟩
theorem rust_line_classified : Classified LexisTable.rust_line rust_line_M := ⟨_, rust_line_S, rust_line_B, rust_line_L, (fun _ => rust_line_L_chk)⟩
theorem scala_line_classified : Classified LexisTable.scala_line scala_line_M := ⟨_, scala_line_S, scala_line_B, pike_line_L, (fun h => nomatch h)⟩
theorem scilab_line_classified : Classified LexisTable.scilab_line scilab_line_M := ⟨_, scilab_line_S, scilab_line_B, scilab_line_L, (fun h => nomatch h)⟩
theorem shell_line_classified : Classified LexisTable.shell_line shell_line_M := ⟨_, shell_line_S, shell_line_B, shell_line_L, (fun h => nomatch h)⟩
theorem smalltalk_line_classified : Classified LexisTable.smalltalk_line smalltalk_line_M := ⟨_, smalltalk_line_S, smalltalk_line_B, smalltalk_line_L, (fun h => nomatch h)⟩
theorem sql_line_classified : Classified LexisTable.sql_line sql_line_M := ⟨_, sql_line_S, sql_line_B, sql_line_L, (fun h => nomatch h)⟩
theorem sb_line_classified : Classified LexisTable.sb_line sb_line_M := ⟨_, sb_line_S, sb_line_B, sb_line_L, (fun h => nomatch h)⟩
theorem swift_line_classified : Classified LexisTable.swift_line swift_line_M := ⟨_, swift_line_S, swift_line_B, dart_line_L, (fun h => nomatch h)⟩
theorem tcl_line_classified : Classified LexisTable.tcl_line tcl_line_M := ⟨_, tcl_line_S, tcl_line_B, tcl_line_L, (fun h => nomatch h)⟩
theorem tex_line_classified : Classified LexisTable.tex_line tex_line_M := ⟨_, tex_line_S, tex_line_B, tex_line_L, (fun h => nomatch h)⟩
theorem tex_dtx_line_classified : Classified LexisTable.tex_dtx_line tex_dtx_line_M := ⟨_, tex_dtx_line_S, tex_dtx_line_B, tex_dtx_line_L, (fun h => nomatch h)⟩
theorem umple_line_classified : Classified LexisTable.umple_line umple_line_M := ⟨_, umple_line_S, umple_line_B, java_line_L, (fun h => nomatch h)⟩
theorem unrealscript_line_classified : Classified LexisTable.unrealscript_line unrealscript_line_M := ⟨_, unrealscript_line_S, unrealscript_line_B, unrealscript_line_L, (fun _ => unrealscript_line_L_chk)⟩
theorem vhdl_line_classified : Classified LexisTable.vhdl_line vhdl_line_M := ⟨_, vhdl_line_S, vhdl_line_B, vhdl_line_L, (fun h => nomatch h)⟩
theorem vb_line_classified : Classified LexisTable.vb_line vb_line_M := ⟨_, vb_line_S, vb_line_B, sb_line_L, (fun h => nomatch h)⟩

theorem classifiedAll : ∀ x ∈ classified, Classified x.2 x.1.line.machine :=
  (List.forall_mem_cons.mpr ⟨ada_line_M_eq ▸ ada_line_classified,
  (List.forall_mem_cons.mpr ⟨ampl_line_M_eq ▸ ampl_line_classified,
  (List.forall_mem_cons.mpr ⟨asm_line_M_eq ▸ asm_line_classified,
  (List.forall_mem_cons.mpr ⟨am_line_M_eq ▸ am_line_classified,
  (List.forall_mem_cons.mpr ⟨awk_line_M_eq ▸ awk_line_classified,
  (List.forall_mem_cons.mpr ⟨bat_line_M_eq ▸ bat_line_classified,
  (List.forall_mem_cons.mpr ⟨c_line_M_eq ▸ c_line_classified,
  (List.forall_mem_cons.mpr ⟨c_line_M_eq ▸ c_line_classified,
  (List.forall_mem_cons.mpr ⟨c_line_M_eq ▸ c_line_classified,
  (List.forall_mem_cons.mpr ⟨c_line_M_eq ▸ c_line_classified,
  (List.forall_mem_cons.mpr ⟨c_line_M_eq ▸ c_line_classified,
  (List.forall_mem_cons.mpr ⟨c_line_M_eq ▸ c_line_classified,
  (List.forall_mem_cons.mpr ⟨c_line_M_eq ▸ c_line_classified,
  (List.forall_mem_cons.mpr ⟨cs_line_M_eq ▸ cs_line_classified,
  (List.forall_mem_cons.mpr ⟨cmake_line_M_eq ▸ cmake_line_classified,
  (List.forall_mem_cons.mpr ⟨css_line_M_eq ▸ css_line_classified,
  (List.forall_mem_cons.mpr ⟨dart_line_M_eq ▸ dart_line_classified,
  (List.forall_mem_cons.mpr ⟨dylan_line_M_eq ▸ dylan_line_classified,
  (List.forall_mem_cons.mpr ⟨ebuild_line_M_eq ▸ ebuild_line_classified,
  (List.forall_mem_cons.mpr ⟨eiffel_line_M_eq ▸ eiffel_line_classified,
  (List.forall_mem_cons.mpr ⟨erlang_line_M_eq ▸ erlang_line_classified,
  (List.forall_mem_cons.mpr ⟨exheres_line_M_eq ▸ exheres_line_classified,
  (List.forall_mem_cons.mpr ⟨factor_line_M_eq ▸ factor_line_classified,
  (List.forall_mem_cons.mpr ⟨forth_line_M_eq ▸ forth_line_classified,
  (List.forall_mem_cons.mpr ⟨ffixed_line_M_eq ▸ ffixed_line_classified,
  (List.forall_mem_cons.mpr ⟨ffree_line_M_eq ▸ ffree_line_classified,
  (List.forall_mem_cons.mpr ⟨fsharp_line_M_eq ▸ fsharp_line_classified,
  (List.forall_mem_cons.mpr ⟨glsl_line_M_eq ▸ glsl_line_classified,
  (List.forall_mem_cons.mpr ⟨golang_line_M_eq ▸ golang_line_classified,
  (List.forall_mem_cons.mpr ⟨grace_line_M_eq ▸ grace_line_classified,
  (List.forall_mem_cons.mpr ⟨groovy_line_M_eq ▸ groovy_line_classified,
  (List.forall_mem_cons.mpr ⟨hx_line_M_eq ▸ hx_line_classified,
  (List.forall_mem_cons.mpr ⟨idl_pvwave_line_M_eq ▸ idl_pvwave_line_classified,
  (List.forall_mem_cons.mpr ⟨jam_line_M_eq ▸ jam_line_classified,
  (List.forall_mem_cons.mpr ⟨java_line_M_eq ▸ java_line_classified,
  (List.forall_mem_cons.mpr ⟨livecode_line_M_eq ▸ livecode_line_classified,
  (List.forall_mem_cons.mpr ⟨logtalk_line_M_eq ▸ logtalk_line_classified,
  (List.forall_mem_cons.mpr ⟨make_line_M_eq ▸ make_line_classified,
  (List.forall_mem_cons.mpr ⟨metafont_line_M_eq ▸ metafont_line_classified,
  (List.forall_mem_cons.mpr ⟨metapost_line_M_eq ▸ metapost_line_classified,
  (List.forall_mem_cons.mpr ⟨objc_line_M_eq ▸ objc_line_classified,
  (List.forall_mem_cons.mpr ⟨objj_line_M_eq ▸ objj_line_classified,
  (List.forall_mem_cons.mpr ⟨pascal_line_M_eq ▸ pascal_line_classified,
  (List.forall_mem_cons.mpr ⟨php_line_M_eq ▸ php_line_classified,
  (List.forall_mem_cons.mpr ⟨pike_line_M_eq ▸ pike_line_classified,
  (List.forall_mem_cons.mpr ⟨postscript_line_M_eq ▸ postscript_line_classified,
  (List.forall_mem_cons.mpr ⟨powershell_line_M_eq ▸ powershell_line_classified,
  (List.forall_mem_cons.mpr ⟨prolog_line_M_eq ▸ prolog_line_classified,
  (List.forall_mem_cons.mpr ⟨puppet_line_M_eq ▸ puppet_line_classified,
  (List.forall_mem_cons.mpr ⟨r_line_M_eq ▸ r_line_classified,
  (List.forall_mem_cons.mpr ⟨rust_line_M_eq ▸ rust_line_classified,
  (List.forall_mem_cons.mpr ⟨scala_line_M_eq ▸ scala_line_classified,
  (List.forall_mem_cons.mpr ⟨scilab_line_M_eq ▸ scilab_line_classified,
  (List.forall_mem_cons.mpr ⟨shell_line_M_eq ▸ shell_line_classified,
  (List.forall_mem_cons.mpr ⟨smalltalk_line_M_eq ▸ smalltalk_line_classified,
  (List.forall_mem_cons.mpr ⟨sql_line_M_eq ▸ sql_line_classified,
  (List.forall_mem_cons.mpr ⟨sb_line_M_eq ▸ sb_line_classified,
  (List.forall_mem_cons.mpr ⟨swift_line_M_eq ▸ swift_line_classified,
  (List.forall_mem_cons.mpr ⟨tcl_line_M_eq ▸ tcl_line_classified,
  (List.forall_mem_cons.mpr ⟨tex_line_M_eq ▸ tex_line_classified,
  (List.forall_mem_cons.mpr ⟨tex_dtx_line_M_eq ▸ tex_dtx_line_classified,
  (List.forall_mem_cons.mpr ⟨umple_line_M_eq ▸ umple_line_classified,
  (List.forall_mem_cons.mpr ⟨unrealscript_line_M_eq ▸ unrealscript_line_classified,
  (List.forall_mem_cons.mpr ⟨vhdl_line_M_eq ▸ vhdl_line_classified,
  (List.forall_mem_cons.mpr ⟨vb_line_M_eq ▸ vb_line_classified,
  (fun _ h => nomatch h)⟩)⟩)⟩)⟩)⟩)⟩)⟩)⟩)⟩)⟩)⟩)⟩)⟩)⟩)⟩)⟩)⟩)⟩)⟩)⟩)⟩)⟩)⟩)⟩)⟩)⟩)⟩)⟩)⟩)⟩)⟩)⟩)⟩)⟩)⟩)⟩)⟩)⟩)⟩)⟩)⟩)⟩)⟩)⟩)⟩)⟩)⟩)⟩)⟩)⟩)⟩)⟩)⟩)⟩)⟩)⟩)⟩)⟩)⟩)⟩)⟩)⟩)⟩)⟩)⟩)

theorem classified_sub : ∀ x ∈ classified, x.1 ∈ parsers :=
  (List.forall_mem_cons.mpr ⟨List.mem_of_getElem? (i := 1) rfl,
  (List.forall_mem_cons.mpr ⟨List.mem_of_getElem? (i := 2) rfl,
  (List.forall_mem_cons.mpr ⟨List.mem_of_getElem? (i := 3) rfl,
  (List.forall_mem_cons.mpr ⟨List.mem_of_getElem? (i := 6) rfl,
  (List.forall_mem_cons.mpr ⟨List.mem_of_getElem? (i := 7) rfl,
  (List.forall_mem_cons.mpr ⟨List.mem_of_getElem? (i := 8) rfl,
  (List.forall_mem_cons.mpr ⟨List.mem_of_getElem? (i := 13) rfl,
  (List.forall_mem_cons.mpr ⟨List.mem_of_getElem? (i := 14) rfl,
  (List.forall_mem_cons.mpr ⟨List.mem_of_getElem? (i := 15) rfl,
  (List.forall_mem_cons.mpr ⟨List.mem_of_getElem? (i := 16) rfl,
  (List.forall_mem_cons.mpr ⟨List.mem_of_getElem? (i := 17) rfl,
  (List.forall_mem_cons.mpr ⟨List.mem_of_getElem? (i := 18) rfl,
  (List.forall_mem_cons.mpr ⟨List.mem_of_getElem? (i := 19) rfl,
  (List.forall_mem_cons.mpr ⟨List.mem_of_getElem? (i := 22) rfl,
  (List.forall_mem_cons.mpr ⟨List.mem_of_getElem? (i := 23) rfl,
  (List.forall_mem_cons.mpr ⟨List.mem_of_getElem? (i := 26) rfl,
  (List.forall_mem_cons.mpr ⟨List.mem_of_getElem? (i := 28) rfl,
  (List.forall_mem_cons.mpr ⟨List.mem_of_getElem? (i := 30) rfl,
  (List.forall_mem_cons.mpr ⟨List.mem_of_getElem? (i := 31) rfl,
  (List.forall_mem_cons.mpr ⟨List.mem_of_getElem? (i := 32) rfl,
  (List.forall_mem_cons.mpr ⟨List.mem_of_getElem? (i := 34) rfl,
  (List.forall_mem_cons.mpr ⟨List.mem_of_getElem? (i := 35) rfl,
  (List.forall_mem_cons.mpr ⟨List.mem_of_getElem? (i := 36) rfl,
  (List.forall_mem_cons.mpr ⟨List.mem_of_getElem? (i := 37) rfl,
  (List.forall_mem_cons.mpr ⟨List.mem_of_getElem? (i := 38) rfl,
  (List.forall_mem_cons.mpr ⟨List.mem_of_getElem? (i := 39) rfl,
  (List.forall_mem_cons.mpr ⟨List.mem_of_getElem? (i := 40) rfl,
  (List.forall_mem_cons.mpr ⟨List.mem_of_getElem? (i := 41) rfl,
  (List.forall_mem_cons.mpr ⟨List.mem_of_getElem? (i := 42) rfl,
  (List.forall_mem_cons.mpr ⟨List.mem_of_getElem? (i := 43) rfl,
  (List.forall_mem_cons.mpr ⟨List.mem_of_getElem? (i := 44) rfl,
  (List.forall_mem_cons.mpr ⟨List.mem_of_getElem? (i := 46) rfl,
  (List.forall_mem_cons.mpr ⟨List.mem_of_getElem? (i := 47) rfl,
  (List.forall_mem_cons.mpr ⟨List.mem_of_getElem? (i := 48) rfl,
  (List.forall_mem_cons.mpr ⟨List.mem_of_getElem? (i := 49) rfl,
  (List.forall_mem_cons.mpr ⟨List.mem_of_getElem? (i := 61) rfl,
  (List.forall_mem_cons.mpr ⟨List.mem_of_getElem? (i := 62) rfl,
  (List.forall_mem_cons.mpr ⟨List.mem_of_getElem? (i := 64) rfl,
  (List.forall_mem_cons.mpr ⟨List.mem_of_getElem? (i := 67) rfl,
  (List.forall_mem_cons.mpr ⟨List.mem_of_getElem? (i := 68) rfl,
  (List.forall_mem_cons.mpr ⟨List.mem_of_getElem? (i := 74) rfl,
  (List.forall_mem_cons.mpr ⟨List.mem_of_getElem? (i := 75) rfl,
  (List.forall_mem_cons.mpr ⟨List.mem_of_getElem? (i := 78) rfl,
  (List.forall_mem_cons.mpr ⟨List.mem_of_getElem? (i := 79) rfl,
  (List.forall_mem_cons.mpr ⟨List.mem_of_getElem? (i := 80) rfl,
  (List.forall_mem_cons.mpr ⟨List.mem_of_getElem? (i := 81) rfl,
  (List.forall_mem_cons.mpr ⟨List.mem_of_getElem? (i := 82) rfl,
  (List.forall_mem_cons.mpr ⟨List.mem_of_getElem? (i := 83) rfl,
  (List.forall_mem_cons.mpr ⟨List.mem_of_getElem? (i := 84) rfl,
  (List.forall_mem_cons.mpr ⟨List.mem_of_getElem? (i := 86) rfl,
  (List.forall_mem_cons.mpr ⟨List.mem_of_getElem? (i := 90) rfl,
  (List.forall_mem_cons.mpr ⟨List.mem_of_getElem? (i := 91) rfl,
  (List.forall_mem_cons.mpr ⟨List.mem_of_getElem? (i := 92) rfl,
  (List.forall_mem_cons.mpr ⟨List.mem_of_getElem? (i := 93) rfl,
  (List.forall_mem_cons.mpr ⟨List.mem_of_getElem? (i := 94) rfl,
  (List.forall_mem_cons.mpr ⟨List.mem_of_getElem? (i := 95) rfl,
  (List.forall_mem_cons.mpr ⟨List.mem_of_getElem? (i := 97) rfl,
  (List.forall_mem_cons.mpr ⟨List.mem_of_getElem? (i := 98) rfl,
  (List.forall_mem_cons.mpr ⟨List.mem_of_getElem? (i := 99) rfl,
  (List.forall_mem_cons.mpr ⟨List.mem_of_getElem? (i := 100) rfl,
  (List.forall_mem_cons.mpr ⟨List.mem_of_getElem? (i := 101) rfl,
  (List.forall_mem_cons.mpr ⟨List.mem_of_getElem? (i := 102) rfl,
  (List.forall_mem_cons.mpr ⟨List.mem_of_getElem? (i := 103) rfl,
  (List.forall_mem_cons.mpr ⟨List.mem_of_getElem? (i := 104) rfl,
  (List.forall_mem_cons.mpr ⟨List.mem_of_getElem? (i := 106) rfl,
  (fun _ h => nomatch h)⟩)⟩)⟩)⟩)⟩)⟩)⟩)⟩)⟩)⟩)⟩)⟩)⟩)⟩)⟩)⟩)⟩)⟩)⟩)⟩)⟩)⟩)⟩)⟩)⟩)⟩)⟩)⟩)⟩)⟩)⟩)⟩)⟩)⟩)⟩)⟩)⟩)⟩)⟩)⟩)⟩)⟩)⟩)⟩)⟩)⟩)⟩)⟩)⟩)⟩)⟩)⟩)⟩)⟩)⟩)⟩)⟩)⟩)⟩)⟩)⟩)⟩)⟩)⟩)⟩)

end Ohcount.Cert
