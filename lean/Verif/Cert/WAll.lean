import Verif.Cert.W1
import Verif.Cert.W2
import Verif.Cert.W3
import Verif.Cert.W4
import Verif.Cert.W5
import Verif.Cert.W6
import Verif.Cert.W7
import Verif.Cert.W8
import Verif.Cert.W9
import Verif.Cert.W10
import Verif.Cert.W11
import Verif.Cert.W12
import Verif.Cert.All

/-! Generated by tools/gen_solid.py. -/

namespace Ohcount.Cert
open Ohcount.Ragel Ohcount.Gram

set_option maxRecDepth 100000

theorem solidAll : ∀ P ∈ parsers, Nonempty (WCert P.line.machine) :=
  (List.forall_mem_cons.mpr ⟨⟨as_line_M_eq ▸ as_line_W⟩,
  (List.forall_mem_cons.mpr ⟨⟨ada_line_M_eq ▸ ada_line_W⟩,
  (List.forall_mem_cons.mpr ⟨⟨ampl_line_M_eq ▸ ampl_line_W⟩,
  (List.forall_mem_cons.mpr ⟨⟨asm_line_M_eq ▸ asm_line_W⟩,
  (List.forall_mem_cons.mpr ⟨⟨augeas_line_M_eq ▸ augeas_line_W⟩,
  (List.forall_mem_cons.mpr ⟨⟨ac_line_M_eq ▸ ac_line_W⟩,
  (List.forall_mem_cons.mpr ⟨⟨am_line_M_eq ▸ am_line_W⟩,
  (List.forall_mem_cons.mpr ⟨⟨awk_line_M_eq ▸ awk_line_W⟩,
  (List.forall_mem_cons.mpr ⟨⟨bat_line_M_eq ▸ bat_line_W⟩,
  (List.forall_mem_cons.mpr ⟨⟨bfpp_line_M_eq ▸ bfpp_line_W⟩,
  (List.forall_mem_cons.mpr ⟨⟨blitzmax_line_M_eq ▸ blitzmax_line_W⟩,
  (List.forall_mem_cons.mpr ⟨⟨boo_line_M_eq ▸ boo_line_W⟩,
  (List.forall_mem_cons.mpr ⟨⟨brainfuck_line_M_eq ▸ brainfuck_line_W⟩,
  (List.forall_mem_cons.mpr ⟨⟨c_line_M_eq ▸ c_line_W⟩,
  (List.forall_mem_cons.mpr ⟨⟨c_line_M_eq ▸ c_line_W⟩,
  (List.forall_mem_cons.mpr ⟨⟨c_line_M_eq ▸ c_line_W⟩,
  (List.forall_mem_cons.mpr ⟨⟨c_line_M_eq ▸ c_line_W⟩,
  (List.forall_mem_cons.mpr ⟨⟨c_line_M_eq ▸ c_line_W⟩,
  (List.forall_mem_cons.mpr ⟨⟨c_line_M_eq ▸ c_line_W⟩,
  (List.forall_mem_cons.mpr ⟨⟨c_line_M_eq ▸ c_line_W⟩,
  (List.forall_mem_cons.mpr ⟨⟨chai_line_M_eq ▸ chai_line_W⟩,
  (List.forall_mem_cons.mpr ⟨⟨cb_line_M_eq ▸ cb_line_W⟩,
  (List.forall_mem_cons.mpr ⟨⟨cs_line_M_eq ▸ cs_line_W⟩,
  (List.forall_mem_cons.mpr ⟨⟨cmake_line_M_eq ▸ cmake_line_W⟩,
  (List.forall_mem_cons.mpr ⟨⟨coq_line_M_eq ▸ coq_line_W⟩,
  (List.forall_mem_cons.mpr ⟨⟨crystal_line_M_eq ▸ crystal_line_W⟩,
  (List.forall_mem_cons.mpr ⟨⟨css_line_M_eq ▸ css_line_W⟩,
  (List.forall_mem_cons.mpr ⟨⟨d_line_M_eq ▸ d_line_W⟩,
  (List.forall_mem_cons.mpr ⟨⟨dart_line_M_eq ▸ dart_line_W⟩,
  (List.forall_mem_cons.mpr ⟨⟨dcl_line_M_eq ▸ dcl_line_W⟩,
  (List.forall_mem_cons.mpr ⟨⟨dylan_line_M_eq ▸ dylan_line_W⟩,
  (List.forall_mem_cons.mpr ⟨⟨ebuild_line_M_eq ▸ ebuild_line_W⟩,
  (List.forall_mem_cons.mpr ⟨⟨eiffel_line_M_eq ▸ eiffel_line_W⟩,
  (List.forall_mem_cons.mpr ⟨⟨elm_line_M_eq ▸ elm_line_W⟩,
  (List.forall_mem_cons.mpr ⟨⟨erlang_line_M_eq ▸ erlang_line_W⟩,
  (List.forall_mem_cons.mpr ⟨⟨exheres_line_M_eq ▸ exheres_line_W⟩,
  (List.forall_mem_cons.mpr ⟨⟨factor_line_M_eq ▸ factor_line_W⟩,
  (List.forall_mem_cons.mpr ⟨⟨forth_line_M_eq ▸ forth_line_W⟩,
  (List.forall_mem_cons.mpr ⟨⟨ffixed_line_M_eq ▸ ffixed_line_W⟩,
  (List.forall_mem_cons.mpr ⟨⟨ffree_line_M_eq ▸ ffree_line_W⟩,
  (List.forall_mem_cons.mpr ⟨⟨fsharp_line_M_eq ▸ fsharp_line_W⟩,
  (List.forall_mem_cons.mpr ⟨⟨glsl_line_M_eq ▸ glsl_line_W⟩,
  (List.forall_mem_cons.mpr ⟨⟨golang_line_M_eq ▸ golang_line_W⟩,
  (List.forall_mem_cons.mpr ⟨⟨grace_line_M_eq ▸ grace_line_W⟩,
  (List.forall_mem_cons.mpr ⟨⟨groovy_line_M_eq ▸ groovy_line_W⟩,
  (List.forall_mem_cons.mpr ⟨⟨haskell_line_M_eq ▸ haskell_line_W⟩,
  (List.forall_mem_cons.mpr ⟨⟨hx_line_M_eq ▸ hx_line_W⟩,
  (List.forall_mem_cons.mpr ⟨⟨idl_pvwave_line_M_eq ▸ idl_pvwave_line_W⟩,
  (List.forall_mem_cons.mpr ⟨⟨jam_line_M_eq ▸ jam_line_W⟩,
  (List.forall_mem_cons.mpr ⟨⟨java_line_M_eq ▸ java_line_W⟩,
  (List.forall_mem_cons.mpr ⟨⟨js_line_M_eq ▸ js_line_W⟩,
  (List.forall_mem_cons.mpr ⟨⟨js_line_M_eq ▸ js_line_W⟩,
  (List.forall_mem_cons.mpr ⟨⟨js_line_M_eq ▸ js_line_W⟩,
  (List.forall_mem_cons.mpr ⟨⟨julia_line_M_eq ▸ julia_line_W⟩,
  (List.forall_mem_cons.mpr ⟨⟨kotlin_line_M_eq ▸ kotlin_line_W⟩,
  (List.forall_mem_cons.mpr ⟨⟨limbo_line_M_eq ▸ limbo_line_W⟩,
  (List.forall_mem_cons.mpr ⟨⟨lisp_line_M_eq ▸ lisp_line_W⟩,
  (List.forall_mem_cons.mpr ⟨⟨lisp_line_M_eq ▸ lisp_line_W⟩,
  (List.forall_mem_cons.mpr ⟨⟨lisp_line_M_eq ▸ lisp_line_W⟩,
  (List.forall_mem_cons.mpr ⟨⟨lisp_line_M_eq ▸ lisp_line_W⟩,
  (List.forall_mem_cons.mpr ⟨⟨lisp_line_M_eq ▸ lisp_line_W⟩,
  (List.forall_mem_cons.mpr ⟨⟨livecode_line_M_eq ▸ livecode_line_W⟩,
  (List.forall_mem_cons.mpr ⟨⟨logtalk_line_M_eq ▸ logtalk_line_W⟩,
  (List.forall_mem_cons.mpr ⟨⟨lua_line_M_eq ▸ lua_line_W⟩,
  (List.forall_mem_cons.mpr ⟨⟨make_line_M_eq ▸ make_line_W⟩,
  (List.forall_mem_cons.mpr ⟨⟨mathematica_line_M_eq ▸ mathematica_line_W⟩,
  (List.forall_mem_cons.mpr ⟨⟨matlab_line_M_eq ▸ matlab_line_W⟩,
  (List.forall_mem_cons.mpr ⟨⟨metafont_line_M_eq ▸ metafont_line_W⟩,
  (List.forall_mem_cons.mpr ⟨⟨metapost_line_M_eq ▸ metapost_line_W⟩,
  (List.forall_mem_cons.mpr ⟨⟨modelica_line_M_eq ▸ modelica_line_W⟩,
  (List.forall_mem_cons.mpr ⟨⟨modula2_line_M_eq ▸ modula2_line_W⟩,
  (List.forall_mem_cons.mpr ⟨⟨modula3_line_M_eq ▸ modula3_line_W⟩,
  (List.forall_mem_cons.mpr ⟨⟨nsis_line_M_eq ▸ nsis_line_W⟩,
  (List.forall_mem_cons.mpr ⟨⟨oberon_line_M_eq ▸ oberon_line_W⟩,
  (List.forall_mem_cons.mpr ⟨⟨objc_line_M_eq ▸ objc_line_W⟩,
  (List.forall_mem_cons.mpr ⟨⟨objj_line_M_eq ▸ objj_line_W⟩,
  (List.forall_mem_cons.mpr ⟨⟨ocaml_line_M_eq ▸ ocaml_line_W⟩,
  (List.forall_mem_cons.mpr ⟨⟨octave_line_M_eq ▸ octave_line_W⟩,
  (List.forall_mem_cons.mpr ⟨⟨pascal_line_M_eq ▸ pascal_line_W⟩,
  (List.forall_mem_cons.mpr ⟨⟨php_line_M_eq ▸ php_line_W⟩,
  (List.forall_mem_cons.mpr ⟨⟨pike_line_M_eq ▸ pike_line_W⟩,
  (List.forall_mem_cons.mpr ⟨⟨postscript_line_M_eq ▸ postscript_line_W⟩,
  (List.forall_mem_cons.mpr ⟨⟨powershell_line_M_eq ▸ powershell_line_W⟩,
  (List.forall_mem_cons.mpr ⟨⟨prolog_line_M_eq ▸ prolog_line_W⟩,
  (List.forall_mem_cons.mpr ⟨⟨puppet_line_M_eq ▸ puppet_line_W⟩,
  (List.forall_mem_cons.mpr ⟨⟨python_line_M_eq ▸ python_line_W⟩,
  (List.forall_mem_cons.mpr ⟨⟨r_line_M_eq ▸ r_line_W⟩,
  (List.forall_mem_cons.mpr ⟨⟨rebol_line_M_eq ▸ rebol_line_W⟩,
  (List.forall_mem_cons.mpr ⟨⟨rexx_line_M_eq ▸ rexx_line_W⟩,
  (List.forall_mem_cons.mpr ⟨⟨ruby_line_M_eq ▸ ruby_line_W⟩,
  (List.forall_mem_cons.mpr ⟨⟨rust_line_M_eq ▸ rust_line_W⟩,
  (List.forall_mem_cons.mpr ⟨⟨scala_line_M_eq ▸ scala_line_W⟩,
  (List.forall_mem_cons.mpr ⟨⟨scilab_line_M_eq ▸ scilab_line_W⟩,
  (List.forall_mem_cons.mpr ⟨⟨shell_line_M_eq ▸ shell_line_W⟩,
  (List.forall_mem_cons.mpr ⟨⟨smalltalk_line_M_eq ▸ smalltalk_line_W⟩,
  (List.forall_mem_cons.mpr ⟨⟨sql_line_M_eq ▸ sql_line_W⟩,
  (List.forall_mem_cons.mpr ⟨⟨stratego_line_M_eq ▸ stratego_line_W⟩,
  (List.forall_mem_cons.mpr ⟨⟨sb_line_M_eq ▸ sb_line_W⟩,
  (List.forall_mem_cons.mpr ⟨⟨swift_line_M_eq ▸ swift_line_W⟩,
  (List.forall_mem_cons.mpr ⟨⟨tcl_line_M_eq ▸ tcl_line_W⟩,
  (List.forall_mem_cons.mpr ⟨⟨tex_line_M_eq ▸ tex_line_W⟩,
  (List.forall_mem_cons.mpr ⟨⟨tex_dtx_line_M_eq ▸ tex_dtx_line_W⟩,
  (List.forall_mem_cons.mpr ⟨⟨umple_line_M_eq ▸ umple_line_W⟩,
  (List.forall_mem_cons.mpr ⟨⟨unrealscript_line_M_eq ▸ unrealscript_line_W⟩,
  (List.forall_mem_cons.mpr ⟨⟨vhdl_line_M_eq ▸ vhdl_line_W⟩,
  (List.forall_mem_cons.mpr ⟨⟨vim_line_M_eq ▸ vim_line_W⟩,
  (List.forall_mem_cons.mpr ⟨⟨vb_line_M_eq ▸ vb_line_W⟩,
  (List.forall_mem_cons.mpr ⟨⟨xaml_line_M_eq ▸ xaml_line_W⟩,
  (List.forall_mem_cons.mpr ⟨⟨xml_line_M_eq ▸ xml_line_W⟩,
  (List.forall_mem_cons.mpr ⟨⟨xmlschema_line_M_eq ▸ xmlschema_line_W⟩,
  (List.forall_mem_cons.mpr ⟨⟨xslt_line_M_eq ▸ xslt_line_W⟩,
  (fun _ h => nomatch h)⟩)⟩)⟩)⟩)⟩)⟩)⟩)⟩)⟩)⟩)⟩)⟩)⟩)⟩)⟩)⟩)⟩)⟩)⟩)⟩)⟩)⟩)⟩)⟩)⟩)⟩)⟩)⟩)⟩)⟩)⟩)⟩)⟩)⟩)⟩)⟩)⟩)⟩)⟩)⟩)⟩)⟩)⟩)⟩)⟩)⟩)⟩)⟩)⟩)⟩)⟩)⟩)⟩)⟩)⟩)⟩)⟩)⟩)⟩)⟩)⟩)⟩)⟩)⟩)⟩)⟩)⟩)⟩)⟩)⟩)⟩)⟩)⟩)⟩)⟩)⟩)⟩)⟩)⟩)⟩)⟩)⟩)⟩)⟩)⟩)⟩)⟩)⟩)⟩)⟩)⟩)⟩)⟩)⟩)⟩)⟩)⟩)⟩)⟩)⟩)⟩)⟩)⟩)⟩)⟩)⟩)⟩)⟩)⟩)⟩)⟩)

end Ohcount.Cert
