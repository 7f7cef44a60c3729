import Verif.ReadAll

/-! Generated by tools/gen_total.py. -/

namespace Ohcount.Cert
open Ohcount.Ragel Ohcount.Gram

set_option maxRecDepth 100000

/-- In all line scanners but that of vim every byte other than a vertical tab is matched by a pattern. -/
theorem parsersTotal : ∀ P ∈ parsers, P ≠ parse_vim → P.line.machine.nfa.total = true :=
  (List.forall_mem_cons.mpr ⟨fun _ => as_line_M_eq ▸ (by decide +kernel : as_line_M.nfa.total = true),
  (List.forall_mem_cons.mpr ⟨fun _ => ada_line_M_eq ▸ (by decide +kernel : ada_line_M.nfa.total = true),
  (List.forall_mem_cons.mpr ⟨fun _ => ampl_line_M_eq ▸ (by decide +kernel : ampl_line_M.nfa.total = true),
  (List.forall_mem_cons.mpr ⟨fun _ => asm_line_M_eq ▸ (by decide +kernel : asm_line_M.nfa.total = true),
  (List.forall_mem_cons.mpr ⟨fun _ => augeas_line_M_eq ▸ (by decide +kernel : augeas_line_M.nfa.total = true),
  (List.forall_mem_cons.mpr ⟨fun _ => ac_line_M_eq ▸ (by decide +kernel : ac_line_M.nfa.total = true),
  (List.forall_mem_cons.mpr ⟨fun _ => am_line_M_eq ▸ (by decide +kernel : am_line_M.nfa.total = true),
  (List.forall_mem_cons.mpr ⟨fun _ => awk_line_M_eq ▸ (by decide +kernel : awk_line_M.nfa.total = true),
  (List.forall_mem_cons.mpr ⟨fun _ => bat_line_M_eq ▸ (by decide +kernel : bat_line_M.nfa.total = true),
  (List.forall_mem_cons.mpr ⟨fun _ => bfpp_line_M_eq ▸ (by decide +kernel : bfpp_line_M.nfa.total = true),
  (List.forall_mem_cons.mpr ⟨fun _ => blitzmax_line_M_eq ▸ (by decide +kernel : blitzmax_line_M.nfa.total = true),
  (List.forall_mem_cons.mpr ⟨fun _ => boo_line_M_eq ▸ (by decide +kernel : boo_line_M.nfa.total = true),
  (List.forall_mem_cons.mpr ⟨fun _ => brainfuck_line_M_eq ▸ (by decide +kernel : brainfuck_line_M.nfa.total = true),
  (List.forall_mem_cons.mpr ⟨fun _ => c_line_M_eq ▸ (by decide +kernel : c_line_M.nfa.total = true),
  (List.forall_mem_cons.mpr ⟨fun _ => c_line_M_eq ▸ (by decide +kernel : c_line_M.nfa.total = true),
  (List.forall_mem_cons.mpr ⟨fun _ => c_line_M_eq ▸ (by decide +kernel : c_line_M.nfa.total = true),
  (List.forall_mem_cons.mpr ⟨fun _ => c_line_M_eq ▸ (by decide +kernel : c_line_M.nfa.total = true),
  (List.forall_mem_cons.mpr ⟨fun _ => c_line_M_eq ▸ (by decide +kernel : c_line_M.nfa.total = true),
  (List.forall_mem_cons.mpr ⟨fun _ => c_line_M_eq ▸ (by decide +kernel : c_line_M.nfa.total = true),
  (List.forall_mem_cons.mpr ⟨fun _ => c_line_M_eq ▸ (by decide +kernel : c_line_M.nfa.total = true),
  (List.forall_mem_cons.mpr ⟨fun _ => chai_line_M_eq ▸ (by decide +kernel : chai_line_M.nfa.total = true),
  (List.forall_mem_cons.mpr ⟨fun _ => cb_line_M_eq ▸ (by decide +kernel : cb_line_M.nfa.total = true),
  (List.forall_mem_cons.mpr ⟨fun _ => cs_line_M_eq ▸ (by decide +kernel : cs_line_M.nfa.total = true),
  (List.forall_mem_cons.mpr ⟨fun _ => cmake_line_M_eq ▸ (by decide +kernel : cmake_line_M.nfa.total = true),
  (List.forall_mem_cons.mpr ⟨fun _ => coq_line_M_eq ▸ (by decide +kernel : coq_line_M.nfa.total = true),
  (List.forall_mem_cons.mpr ⟨fun _ => crystal_line_M_eq ▸ (by decide +kernel : crystal_line_M.nfa.total = true),
  (List.forall_mem_cons.mpr ⟨fun _ => css_line_M_eq ▸ (by decide +kernel : css_line_M.nfa.total = true),
  (List.forall_mem_cons.mpr ⟨fun _ => d_line_M_eq ▸ (by decide +kernel : d_line_M.nfa.total = true),
  (List.forall_mem_cons.mpr ⟨fun _ => dart_line_M_eq ▸ (by decide +kernel : dart_line_M.nfa.total = true),
  (List.forall_mem_cons.mpr ⟨fun _ => dcl_line_M_eq ▸ (by decide +kernel : dcl_line_M.nfa.total = true),
  (List.forall_mem_cons.mpr ⟨fun _ => dylan_line_M_eq ▸ (by decide +kernel : dylan_line_M.nfa.total = true),
  (List.forall_mem_cons.mpr ⟨fun _ => ebuild_line_M_eq ▸ (by decide +kernel : ebuild_line_M.nfa.total = true),
  (List.forall_mem_cons.mpr ⟨fun _ => eiffel_line_M_eq ▸ (by decide +kernel : eiffel_line_M.nfa.total = true),
  (List.forall_mem_cons.mpr ⟨fun _ => elm_line_M_eq ▸ (by decide +kernel : elm_line_M.nfa.total = true),
  (List.forall_mem_cons.mpr ⟨fun _ => erlang_line_M_eq ▸ (by decide +kernel : erlang_line_M.nfa.total = true),
  (List.forall_mem_cons.mpr ⟨fun _ => exheres_line_M_eq ▸ (by decide +kernel : exheres_line_M.nfa.total = true),
  (List.forall_mem_cons.mpr ⟨fun _ => factor_line_M_eq ▸ (by decide +kernel : factor_line_M.nfa.total = true),
  (List.forall_mem_cons.mpr ⟨fun _ => forth_line_M_eq ▸ (by decide +kernel : forth_line_M.nfa.total = true),
  (List.forall_mem_cons.mpr ⟨fun _ => ffixed_line_M_eq ▸ (by decide +kernel : ffixed_line_M.nfa.total = true),
  (List.forall_mem_cons.mpr ⟨fun _ => ffree_line_M_eq ▸ (by decide +kernel : ffree_line_M.nfa.total = true),
  (List.forall_mem_cons.mpr ⟨fun _ => fsharp_line_M_eq ▸ (by decide +kernel : fsharp_line_M.nfa.total = true),
  (List.forall_mem_cons.mpr ⟨fun _ => glsl_line_M_eq ▸ (by decide +kernel : glsl_line_M.nfa.total = true),
  (List.forall_mem_cons.mpr ⟨fun _ => golang_line_M_eq ▸ (by decide +kernel : golang_line_M.nfa.total = true),
  (List.forall_mem_cons.mpr ⟨fun _ => grace_line_M_eq ▸ (by decide +kernel : grace_line_M.nfa.total = true),
  (List.forall_mem_cons.mpr ⟨fun _ => groovy_line_M_eq ▸ (by decide +kernel : groovy_line_M.nfa.total = true),
  (List.forall_mem_cons.mpr ⟨fun _ => haskell_line_M_eq ▸ (by decide +kernel : haskell_line_M.nfa.total = true),
  (List.forall_mem_cons.mpr ⟨fun _ => hx_line_M_eq ▸ (by decide +kernel : hx_line_M.nfa.total = true),
  (List.forall_mem_cons.mpr ⟨fun _ => idl_pvwave_line_M_eq ▸ (by decide +kernel : idl_pvwave_line_M.nfa.total = true),
  (List.forall_mem_cons.mpr ⟨fun _ => jam_line_M_eq ▸ (by decide +kernel : jam_line_M.nfa.total = true),
  (List.forall_mem_cons.mpr ⟨fun _ => java_line_M_eq ▸ (by decide +kernel : java_line_M.nfa.total = true),
  (List.forall_mem_cons.mpr ⟨fun _ => js_line_M_eq ▸ (by decide +kernel : js_line_M.nfa.total = true),
  (List.forall_mem_cons.mpr ⟨fun _ => js_line_M_eq ▸ (by decide +kernel : js_line_M.nfa.total = true),
  (List.forall_mem_cons.mpr ⟨fun _ => js_line_M_eq ▸ (by decide +kernel : js_line_M.nfa.total = true),
  (List.forall_mem_cons.mpr ⟨fun _ => julia_line_M_eq ▸ (by decide +kernel : julia_line_M.nfa.total = true),
  (List.forall_mem_cons.mpr ⟨fun _ => kotlin_line_M_eq ▸ (by decide +kernel : kotlin_line_M.nfa.total = true),
  (List.forall_mem_cons.mpr ⟨fun _ => limbo_line_M_eq ▸ (by decide +kernel : limbo_line_M.nfa.total = true),
  (List.forall_mem_cons.mpr ⟨fun _ => lisp_line_M_eq ▸ (by decide +kernel : lisp_line_M.nfa.total = true),
  (List.forall_mem_cons.mpr ⟨fun _ => lisp_line_M_eq ▸ (by decide +kernel : lisp_line_M.nfa.total = true),
  (List.forall_mem_cons.mpr ⟨fun _ => lisp_line_M_eq ▸ (by decide +kernel : lisp_line_M.nfa.total = true),
  (List.forall_mem_cons.mpr ⟨fun _ => lisp_line_M_eq ▸ (by decide +kernel : lisp_line_M.nfa.total = true),
  (List.forall_mem_cons.mpr ⟨fun _ => lisp_line_M_eq ▸ (by decide +kernel : lisp_line_M.nfa.total = true),
  (List.forall_mem_cons.mpr ⟨fun _ => livecode_line_M_eq ▸ (by decide +kernel : livecode_line_M.nfa.total = true),
  (List.forall_mem_cons.mpr ⟨fun _ => logtalk_line_M_eq ▸ (by decide +kernel : logtalk_line_M.nfa.total = true),
  (List.forall_mem_cons.mpr ⟨fun _ => lua_line_M_eq ▸ (by decide +kernel : lua_line_M.nfa.total = true),
  (List.forall_mem_cons.mpr ⟨fun _ => make_line_M_eq ▸ (by decide +kernel : make_line_M.nfa.total = true),
  (List.forall_mem_cons.mpr ⟨fun _ => mathematica_line_M_eq ▸ (by decide +kernel : mathematica_line_M.nfa.total = true),
  (List.forall_mem_cons.mpr ⟨fun _ => matlab_line_M_eq ▸ (by decide +kernel : matlab_line_M.nfa.total = true),
  (List.forall_mem_cons.mpr ⟨fun _ => metafont_line_M_eq ▸ (by decide +kernel : metafont_line_M.nfa.total = true),
  (List.forall_mem_cons.mpr ⟨fun _ => metapost_line_M_eq ▸ (by decide +kernel : metapost_line_M.nfa.total = true),
  (List.forall_mem_cons.mpr ⟨fun _ => modelica_line_M_eq ▸ (by decide +kernel : modelica_line_M.nfa.total = true),
  (List.forall_mem_cons.mpr ⟨fun _ => modula2_line_M_eq ▸ (by decide +kernel : modula2_line_M.nfa.total = true),
  (List.forall_mem_cons.mpr ⟨fun _ => modula3_line_M_eq ▸ (by decide +kernel : modula3_line_M.nfa.total = true),
  (List.forall_mem_cons.mpr ⟨fun _ => nsis_line_M_eq ▸ (by decide +kernel : nsis_line_M.nfa.total = true),
  (List.forall_mem_cons.mpr ⟨fun _ => oberon_line_M_eq ▸ (by decide +kernel : oberon_line_M.nfa.total = true),
  (List.forall_mem_cons.mpr ⟨fun _ => objc_line_M_eq ▸ (by decide +kernel : objc_line_M.nfa.total = true),
  (List.forall_mem_cons.mpr ⟨fun _ => objj_line_M_eq ▸ (by decide +kernel : objj_line_M.nfa.total = true),
  (List.forall_mem_cons.mpr ⟨fun _ => ocaml_line_M_eq ▸ (by decide +kernel : ocaml_line_M.nfa.total = true),
  (List.forall_mem_cons.mpr ⟨fun _ => octave_line_M_eq ▸ (by decide +kernel : octave_line_M.nfa.total = true),
  (List.forall_mem_cons.mpr ⟨fun _ => pascal_line_M_eq ▸ (by decide +kernel : pascal_line_M.nfa.total = true),
  (List.forall_mem_cons.mpr ⟨fun _ => php_line_M_eq ▸ (by decide +kernel : php_line_M.nfa.total = true),
  (List.forall_mem_cons.mpr ⟨fun _ => pike_line_M_eq ▸ (by decide +kernel : pike_line_M.nfa.total = true),
  (List.forall_mem_cons.mpr ⟨fun _ => postscript_line_M_eq ▸ (by decide +kernel : postscript_line_M.nfa.total = true),
  (List.forall_mem_cons.mpr ⟨fun _ => powershell_line_M_eq ▸ (by decide +kernel : powershell_line_M.nfa.total = true),
  (List.forall_mem_cons.mpr ⟨fun _ => prolog_line_M_eq ▸ (by decide +kernel : prolog_line_M.nfa.total = true),
  (List.forall_mem_cons.mpr ⟨fun _ => puppet_line_M_eq ▸ (by decide +kernel : puppet_line_M.nfa.total = true),
  (List.forall_mem_cons.mpr ⟨fun _ => python_line_M_eq ▸ (by decide +kernel : python_line_M.nfa.total = true),
  (List.forall_mem_cons.mpr ⟨fun _ => r_line_M_eq ▸ (by decide +kernel : r_line_M.nfa.total = true),
  (List.forall_mem_cons.mpr ⟨fun _ => rebol_line_M_eq ▸ (by decide +kernel : rebol_line_M.nfa.total = true),
  (List.forall_mem_cons.mpr ⟨fun _ => rexx_line_M_eq ▸ (by decide +kernel : rexx_line_M.nfa.total = true),
  (List.forall_mem_cons.mpr ⟨fun _ => ruby_line_M_eq ▸ (by decide +kernel : ruby_line_M.nfa.total = true),
  (List.forall_mem_cons.mpr ⟨fun _ => rust_line_M_eq ▸ (by decide +kernel : rust_line_M.nfa.total = true),
  (List.forall_mem_cons.mpr ⟨fun _ => scala_line_M_eq ▸ (by decide +kernel : scala_line_M.nfa.total = true),
  (List.forall_mem_cons.mpr ⟨fun _ => scilab_line_M_eq ▸ (by decide +kernel : scilab_line_M.nfa.total = true),
  (List.forall_mem_cons.mpr ⟨fun _ => shell_line_M_eq ▸ (by decide +kernel : shell_line_M.nfa.total = true),
  (List.forall_mem_cons.mpr ⟨fun _ => smalltalk_line_M_eq ▸ (by decide +kernel : smalltalk_line_M.nfa.total = true),
  (List.forall_mem_cons.mpr ⟨fun _ => sql_line_M_eq ▸ (by decide +kernel : sql_line_M.nfa.total = true),
  (List.forall_mem_cons.mpr ⟨fun _ => stratego_line_M_eq ▸ (by decide +kernel : stratego_line_M.nfa.total = true),
  (List.forall_mem_cons.mpr ⟨fun _ => sb_line_M_eq ▸ (by decide +kernel : sb_line_M.nfa.total = true),
  (List.forall_mem_cons.mpr ⟨fun _ => swift_line_M_eq ▸ (by decide +kernel : swift_line_M.nfa.total = true),
  (List.forall_mem_cons.mpr ⟨fun _ => tcl_line_M_eq ▸ (by decide +kernel : tcl_line_M.nfa.total = true),
  (List.forall_mem_cons.mpr ⟨fun _ => tex_line_M_eq ▸ (by decide +kernel : tex_line_M.nfa.total = true),
  (List.forall_mem_cons.mpr ⟨fun _ => tex_dtx_line_M_eq ▸ (by decide +kernel : tex_dtx_line_M.nfa.total = true),
  (List.forall_mem_cons.mpr ⟨fun _ => umple_line_M_eq ▸ (by decide +kernel : umple_line_M.nfa.total = true),
  (List.forall_mem_cons.mpr ⟨fun _ => unrealscript_line_M_eq ▸ (by decide +kernel : unrealscript_line_M.nfa.total = true),
  (List.forall_mem_cons.mpr ⟨fun _ => vhdl_line_M_eq ▸ (by decide +kernel : vhdl_line_M.nfa.total = true),
  (List.forall_mem_cons.mpr ⟨fun h => absurd rfl h,
  (List.forall_mem_cons.mpr ⟨fun _ => vb_line_M_eq ▸ (by decide +kernel : vb_line_M.nfa.total = true),
  (List.forall_mem_cons.mpr ⟨fun _ => xaml_line_M_eq ▸ (by decide +kernel : xaml_line_M.nfa.total = true),
  (List.forall_mem_cons.mpr ⟨fun _ => xml_line_M_eq ▸ (by decide +kernel : xml_line_M.nfa.total = true),
  (List.forall_mem_cons.mpr ⟨fun _ => xmlschema_line_M_eq ▸ (by decide +kernel : xmlschema_line_M.nfa.total = true),
  (List.forall_mem_cons.mpr ⟨fun _ => xslt_line_M_eq ▸ (by decide +kernel : xslt_line_M.nfa.total = true),
  (fun _ h => nomatch h)⟩)⟩)⟩)⟩)⟩)⟩)⟩)⟩)⟩)⟩)⟩)⟩)⟩)⟩)⟩)⟩)⟩)⟩)⟩)⟩)⟩)⟩)⟩)⟩)⟩)⟩)⟩)⟩)⟩)⟩)⟩)⟩)⟩)⟩)⟩)⟩)⟩)⟩)⟩)⟩)⟩)⟩)⟩)⟩)⟩)⟩)⟩)⟩)⟩)⟩)⟩)⟩)⟩)⟩)⟩)⟩)⟩)⟩)⟩)⟩)⟩)⟩)⟩)⟩)⟩)⟩)⟩)⟩)⟩)⟩)⟩)⟩)⟩)⟩)⟩)⟩)⟩)⟩)⟩)⟩)⟩)⟩)⟩)⟩)⟩)⟩)⟩)⟩)⟩)⟩)⟩)⟩)⟩)⟩)⟩)⟩)⟩)⟩)⟩)⟩)⟩)⟩)⟩)⟩)⟩)⟩)⟩)⟩)⟩)⟩)⟩)

end Ohcount.Cert
