import Verif.RagelEnts

/-! Generated by tools/gen_certs.py. -/

namespace Ohcount.Cert
open Ohcount.Ragel Ohcount.Gram

set_option maxRecDepth 100000

theorem as_entity_any : anyByte Actionscript.as_entity.machine.nfa = true := by decide +kernel
theorem as_entity_noHold : noHold Actionscript.as_entity.machine.nfa = true := noHold_of_frags (by decide +kernel)

theorem ada_entity_any : anyByte Ada.ada_entity.machine.nfa = true := by decide +kernel
theorem ada_entity_noHold : noHold Ada.ada_entity.machine.nfa = true := noHold_of_frags (by decide +kernel)

theorem ampl_entity_any : anyByte Ampl.ampl_entity.machine.nfa = true := by decide +kernel
theorem ampl_entity_noHold : noHold Ampl.ampl_entity.machine.nfa = true := noHold_of_frags (by decide +kernel)

theorem asm_entity_any : anyByte Assembler.asm_entity.machine.nfa = true := by decide +kernel
theorem asm_entity_noHold : noHold Assembler.asm_entity.machine.nfa = true := noHold_of_frags (by decide +kernel)

theorem augeas_entity_any : anyByte Augeas.augeas_entity.machine.nfa = true := by decide +kernel
theorem augeas_entity_noHold : noHold Augeas.augeas_entity.machine.nfa = true := noHold_of_frags (by decide +kernel)

theorem ac_entity_any : anyByte Autoconf.ac_entity.machine.nfa = true := by decide +kernel
theorem ac_entity_noHold : noHold Autoconf.ac_entity.machine.nfa = true := noHold_of_frags (by decide +kernel)

theorem am_entity_any : anyByte Automake.am_entity.machine.nfa = true := by decide +kernel
theorem am_entity_noHold : noHold Automake.am_entity.machine.nfa = true := noHold_of_frags (by decide +kernel)

theorem awk_entity_any : anyByte Awk.awk_entity.machine.nfa = true := by decide +kernel
theorem awk_entity_noHold : noHold Awk.awk_entity.machine.nfa = true := noHold_of_frags (by decide +kernel)

theorem bat_entity_any : anyByte Bat.bat_entity.machine.nfa = true := by decide +kernel
theorem bat_entity_noHold : noHold Bat.bat_entity.machine.nfa = true := noHold_of_frags (by decide +kernel)

theorem blitzmax_entity_any : anyByte Blitzmax.blitzmax_entity.machine.nfa = true := by decide +kernel
theorem blitzmax_entity_noHold : noHold Blitzmax.blitzmax_entity.machine.nfa = true := noHold_of_frags (by decide +kernel)

theorem boo_entity_any : anyByte Boo.boo_entity.machine.nfa = true := by decide +kernel
theorem boo_entity_noHold : noHold Boo.boo_entity.machine.nfa = true := noHold_of_frags (by decide +kernel)

theorem c_entity_any : anyByte C.c_entity.machine.nfa = true := by decide +kernel
theorem c_entity_noHold : noHold C.c_entity.machine.nfa = true := noHold_of_frags (by decide +kernel)
theorem c_entity_allEcb : allEcb C.c_entity.machine = true := allEcb_of (n := 9) (by decide +kernel)

theorem chai_entity_any : anyByte Chaiscript.chai_entity.machine.nfa = true := by decide +kernel
theorem chai_entity_noHold : noHold Chaiscript.chai_entity.machine.nfa = true := noHold_of_frags (by decide +kernel)

theorem cb_entity_any : anyByte ClassicBasic.cb_entity.machine.nfa = true := by decide +kernel
theorem cb_entity_noHold : noHold ClassicBasic.cb_entity.machine.nfa = true := noHold_of_frags (by decide +kernel)

theorem cs_entity_any : anyByte Clearsilver.cs_entity.machine.nfa = true := by decide +kernel
theorem cs_entity_noHold : noHold Clearsilver.cs_entity.machine.nfa = true := noHold_of_frags (by decide +kernel)

theorem cmake_entity_any : anyByte Cmake.cmake_entity.machine.nfa = true := by decide +kernel
theorem cmake_entity_noHold : noHold Cmake.cmake_entity.machine.nfa = true := noHold_of_frags (by decide +kernel)

theorem coq_entity_any : anyByte Coq.coq_entity.machine.nfa = true := by decide +kernel
theorem coq_entity_noHold : noHold Coq.coq_entity.machine.nfa = true := noHold_of_frags (by decide +kernel)

theorem crystal_entity_any : anyByte Crystal.crystal_entity.machine.nfa = true := by decide +kernel
theorem crystal_entity_noHold : noHold Crystal.crystal_entity.machine.nfa = true := noHold_of_frags (by decide +kernel)

theorem css_entity_any : anyByte Css.css_entity.machine.nfa = true := by decide +kernel
theorem css_entity_noHold : noHold Css.css_entity.machine.nfa = true := noHold_of_frags (by decide +kernel)

theorem d_entity_any : anyByte D.d_entity.machine.nfa = true := by decide +kernel
theorem d_entity_noHold : noHold D.d_entity.machine.nfa = true := noHold_of_frags (by decide +kernel)

theorem dart_entity_any : anyByte Dart.dart_entity.machine.nfa = true := by decide +kernel
theorem dart_entity_noHold : noHold Dart.dart_entity.machine.nfa = true := noHold_of_frags (by decide +kernel)

theorem dcl_entity_any : anyByte Dcl.dcl_entity.machine.nfa = true := by decide +kernel
theorem dcl_entity_noHold : noHold Dcl.dcl_entity.machine.nfa = true := noHold_of_frags (by decide +kernel)

theorem dylan_entity_any : anyByte Dylan.dylan_entity.machine.nfa = true := by decide +kernel
theorem dylan_entity_noHold : noHold Dylan.dylan_entity.machine.nfa = true := noHold_of_frags (by decide +kernel)

theorem ebuild_entity_any : anyByte Ebuild.ebuild_entity.machine.nfa = true := by decide +kernel
theorem ebuild_entity_noHold : noHold Ebuild.ebuild_entity.machine.nfa = true := noHold_of_frags (by decide +kernel)

theorem eiffel_entity_any : anyByte Eiffel.eiffel_entity.machine.nfa = true := by decide +kernel
theorem eiffel_entity_noHold : noHold Eiffel.eiffel_entity.machine.nfa = true := noHold_of_frags (by decide +kernel)

theorem elm_entity_any : anyByte Elm.elm_entity.machine.nfa = true := by decide +kernel
theorem elm_entity_hold : holdOk Elm.elm_entity.machine.nfa = true := by decide +kernel

theorem erlang_entity_any : anyByte Erlang.erlang_entity.machine.nfa = true := by decide +kernel
theorem erlang_entity_noHold : noHold Erlang.erlang_entity.machine.nfa = true := noHold_of_frags (by decide +kernel)

theorem exheres_entity_any : anyByte Exheres.exheres_entity.machine.nfa = true := by decide +kernel
theorem exheres_entity_noHold : noHold Exheres.exheres_entity.machine.nfa = true := noHold_of_frags (by decide +kernel)

theorem forth_entity_any : anyByte Forth.forth_entity.machine.nfa = true := by decide +kernel
theorem forth_entity_noHold : noHold Forth.forth_entity.machine.nfa = true := noHold_of_frags (by decide +kernel)

theorem ffixed_entity_any : anyByte Fortranfixed.ffixed_entity.machine.nfa = true := by decide +kernel
theorem ffixed_entity_noHold : noHold Fortranfixed.ffixed_entity.machine.nfa = true := noHold_of_frags (by decide +kernel)

theorem ffree_entity_any : anyByte Fortranfree.ffree_entity.machine.nfa = true := by decide +kernel
theorem ffree_entity_noHold : noHold Fortranfree.ffree_entity.machine.nfa = true := noHold_of_frags (by decide +kernel)

theorem fsharp_entity_any : anyByte Fsharp.fsharp_entity.machine.nfa = true := by decide +kernel
theorem fsharp_entity_noHold : noHold Fsharp.fsharp_entity.machine.nfa = true := noHold_of_frags (by decide +kernel)
theorem fsharp_entity_allEcb : allEcb Fsharp.fsharp_entity.machine = true := allEcb_of (n := 9) (by decide +kernel)

theorem glsl_entity_any : anyByte Glsl.glsl_entity.machine.nfa = true := by decide +kernel
theorem glsl_entity_noHold : noHold Glsl.glsl_entity.machine.nfa = true := noHold_of_frags (by decide +kernel)
theorem glsl_entity_allEcb : allEcb Glsl.glsl_entity.machine = true := allEcb_of (n := 9) (by decide +kernel)

theorem golang_entity_any : anyByte Golang.golang_entity.machine.nfa = true := by decide +kernel
theorem golang_entity_noHold : noHold Golang.golang_entity.machine.nfa = true := noHold_of_frags (by decide +kernel)
theorem golang_entity_allEcb : allEcb Golang.golang_entity.machine = true := allEcb_of (n := 9) (by decide +kernel)

theorem grace_entity_any : anyByte Grace.grace_entity.machine.nfa = true := by decide +kernel
theorem grace_entity_noHold : noHold Grace.grace_entity.machine.nfa = true := noHold_of_frags (by decide +kernel)

theorem groovy_entity_any : anyByte Groovy.groovy_entity.machine.nfa = true := by decide +kernel
theorem groovy_entity_noHold : noHold Groovy.groovy_entity.machine.nfa = true := noHold_of_frags (by decide +kernel)

theorem haskell_entity_any : anyByte Haskell.haskell_entity.machine.nfa = true := by decide +kernel
theorem haskell_entity_hold : holdOk Haskell.haskell_entity.machine.nfa = true := by decide +kernel

theorem hx_entity_any : anyByte Haxe.hx_entity.machine.nfa = true := by decide +kernel
theorem hx_entity_noHold : noHold Haxe.hx_entity.machine.nfa = true := noHold_of_frags (by decide +kernel)

theorem idl_pvwave_entity_any : anyByte IdlPvwave.idl_pvwave_entity.machine.nfa = true := by decide +kernel
theorem idl_pvwave_entity_noHold : noHold IdlPvwave.idl_pvwave_entity.machine.nfa = true := noHold_of_frags (by decide +kernel)

theorem jam_entity_any : anyByte Jam.jam_entity.machine.nfa = true := by decide +kernel
theorem jam_entity_noHold : noHold Jam.jam_entity.machine.nfa = true := noHold_of_frags (by decide +kernel)

theorem java_entity_any : anyByte Java.java_entity.machine.nfa = true := by decide +kernel
theorem java_entity_noHold : noHold Java.java_entity.machine.nfa = true := noHold_of_frags (by decide +kernel)

theorem js_entity_any : anyByte Javascript.js_entity.machine.nfa = true := by decide +kernel
theorem js_entity_noHold : noHold Javascript.js_entity.machine.nfa = true := noHold_of_frags (by decide +kernel)

theorem julia_entity_any : anyByte Julia.julia_entity.machine.nfa = true := by decide +kernel
theorem julia_entity_noHold : noHold Julia.julia_entity.machine.nfa = true := noHold_of_frags (by decide +kernel)

theorem kotlin_entity_any : anyByte Kotlin.kotlin_entity.machine.nfa = true := by decide +kernel
theorem kotlin_entity_noHold : noHold Kotlin.kotlin_entity.machine.nfa = true := noHold_of_frags (by decide +kernel)
theorem kotlin_entity_allEcb : allEcb Kotlin.kotlin_entity.machine = true := allEcb_of (n := 8) (by decide +kernel)

theorem lisp_entity_any : anyByte Lisp.lisp_entity.machine.nfa = true := by decide +kernel
theorem lisp_entity_noHold : noHold Lisp.lisp_entity.machine.nfa = true := noHold_of_frags (by decide +kernel)

theorem livecode_entity_any : anyByte Livecode.livecode_entity.machine.nfa = true := by decide +kernel
theorem livecode_entity_noHold : noHold Livecode.livecode_entity.machine.nfa = true := noHold_of_frags (by decide +kernel)

theorem logtalk_entity_any : anyByte Logtalk.logtalk_entity.machine.nfa = true := by decide +kernel
theorem logtalk_entity_noHold : noHold Logtalk.logtalk_entity.machine.nfa = true := noHold_of_frags (by decide +kernel)

theorem lua_entity_any : anyByte Lua.lua_entity.machine.nfa = true := by decide +kernel
theorem lua_entity_noHold : noHold Lua.lua_entity.machine.nfa = true := noHold_of_frags (by decide +kernel)
theorem lua_entity_allEcb : allEcb Lua.lua_entity.machine = true := allEcb_of (n := 8) (by decide +kernel)

theorem make_entity_any : anyByte Makefile.make_entity.machine.nfa = true := by decide +kernel
theorem make_entity_noHold : noHold Makefile.make_entity.machine.nfa = true := noHold_of_frags (by decide +kernel)

theorem mathematica_entity_any : anyByte Mathematica.mathematica_entity.machine.nfa = true := by decide +kernel
theorem mathematica_entity_noHold : noHold Mathematica.mathematica_entity.machine.nfa = true := noHold_of_frags (by decide +kernel)

theorem matlab_entity_any : anyByte Matlab.matlab_entity.machine.nfa = true := by decide +kernel
theorem matlab_entity_hold : holdOk Matlab.matlab_entity.machine.nfa = true := by decide +kernel

theorem metafont_entity_any : anyByte Metafont.metafont_entity.machine.nfa = true := by decide +kernel
theorem metafont_entity_noHold : noHold Metafont.metafont_entity.machine.nfa = true := noHold_of_frags (by decide +kernel)

theorem metapost_entity_any : anyByte Metapost.metapost_entity.machine.nfa = true := by decide +kernel
theorem metapost_entity_noHold : noHold Metapost.metapost_entity.machine.nfa = true := noHold_of_frags (by decide +kernel)

theorem modelica_entity_any : anyByte Modelica.modelica_entity.machine.nfa = true := by decide +kernel
theorem modelica_entity_noHold : noHold Modelica.modelica_entity.machine.nfa = true := noHold_of_frags (by decide +kernel)

theorem modula2_entity_any : anyByte Modula2.modula2_entity.machine.nfa = true := by decide +kernel
theorem modula2_entity_noHold : noHold Modula2.modula2_entity.machine.nfa = true := noHold_of_frags (by decide +kernel)

theorem modula3_entity_any : anyByte Modula3.modula3_entity.machine.nfa = true := by decide +kernel
theorem modula3_entity_noHold : noHold Modula3.modula3_entity.machine.nfa = true := noHold_of_frags (by decide +kernel)

theorem nsis_entity_any : anyByte Nsis.nsis_entity.machine.nfa = true := by decide +kernel
theorem nsis_entity_noHold : noHold Nsis.nsis_entity.machine.nfa = true := noHold_of_frags (by decide +kernel)

theorem oberon_entity_any : anyByte Oberon.oberon_entity.machine.nfa = true := by decide +kernel
theorem oberon_entity_noHold : noHold Oberon.oberon_entity.machine.nfa = true := noHold_of_frags (by decide +kernel)

theorem objc_entity_any : anyByte ObjectiveC.objc_entity.machine.nfa = true := by decide +kernel
theorem objc_entity_noHold : noHold ObjectiveC.objc_entity.machine.nfa = true := noHold_of_frags (by decide +kernel)

theorem objj_entity_any : anyByte ObjectiveJ.objj_entity.machine.nfa = true := by decide +kernel
theorem objj_entity_noHold : noHold ObjectiveJ.objj_entity.machine.nfa = true := noHold_of_frags (by decide +kernel)

theorem ocaml_entity_any : anyByte Ocaml.ocaml_entity.machine.nfa = true := by decide +kernel
theorem ocaml_entity_noHold : noHold Ocaml.ocaml_entity.machine.nfa = true := noHold_of_frags (by decide +kernel)

theorem octave_entity_any : anyByte Octave.octave_entity.machine.nfa = true := by decide +kernel
theorem octave_entity_hold : holdOk Octave.octave_entity.machine.nfa = true := by decide +kernel

theorem pascal_entity_any : anyByte Pascal.pascal_entity.machine.nfa = true := by decide +kernel
theorem pascal_entity_noHold : noHold Pascal.pascal_entity.machine.nfa = true := noHold_of_frags (by decide +kernel)

theorem php_entity_any : anyByte Php.php_entity.machine.nfa = true := by decide +kernel
theorem php_entity_noHold : noHold Php.php_entity.machine.nfa = true := noHold_of_frags (by decide +kernel)

theorem pike_entity_any : anyByte Pike.pike_entity.machine.nfa = true := by decide +kernel
theorem pike_entity_noHold : noHold Pike.pike_entity.machine.nfa = true := noHold_of_frags (by decide +kernel)

theorem postscript_entity_any : anyByte Postscript.postscript_entity.machine.nfa = true := by decide +kernel
theorem postscript_entity_noHold : noHold Postscript.postscript_entity.machine.nfa = true := noHold_of_frags (by decide +kernel)

theorem powershell_entity_any : anyByte Powershell.powershell_entity.machine.nfa = true := by decide +kernel
theorem powershell_entity_noHold : noHold Powershell.powershell_entity.machine.nfa = true := noHold_of_frags (by decide +kernel)

theorem prolog_entity_any : anyByte Prolog.prolog_entity.machine.nfa = true := by decide +kernel
theorem prolog_entity_noHold : noHold Prolog.prolog_entity.machine.nfa = true := noHold_of_frags (by decide +kernel)

theorem puppet_entity_any : anyByte Puppet.puppet_entity.machine.nfa = true := by decide +kernel
theorem puppet_entity_noHold : noHold Puppet.puppet_entity.machine.nfa = true := noHold_of_frags (by decide +kernel)

theorem python_entity_any : anyByte Python.python_entity.machine.nfa = true := by decide +kernel
theorem python_entity_noHold : noHold Python.python_entity.machine.nfa = true := noHold_of_frags (by decide +kernel)

theorem r_entity_any : anyByte R.r_entity.machine.nfa = true := by decide +kernel
theorem r_entity_noHold : noHold R.r_entity.machine.nfa = true := noHold_of_frags (by decide +kernel)

theorem rebol_entity_any : anyByte Rebol.rebol_entity.machine.nfa = true := by decide +kernel
theorem rebol_entity_noHold : noHold Rebol.rebol_entity.machine.nfa = true := noHold_of_frags (by decide +kernel)
theorem rebol_entity_allEcb : allEcb Rebol.rebol_entity.machine = true := allEcb_of (n := 4) (by decide +kernel)

theorem rexx_entity_any : anyByte Rexx.rexx_entity.machine.nfa = true := by decide +kernel
theorem rexx_entity_noHold : noHold Rexx.rexx_entity.machine.nfa = true := noHold_of_frags (by decide +kernel)

theorem ruby_entity_any : anyByte Ruby.ruby_entity.machine.nfa = true := by decide +kernel
theorem ruby_entity_noHold : noHold Ruby.ruby_entity.machine.nfa = true := noHold_of_frags (by decide +kernel)

theorem rust_entity_any : anyByte Rust.rust_entity.machine.nfa = true := by decide +kernel
theorem rust_entity_noHold : noHold Rust.rust_entity.machine.nfa = true := noHold_of_frags (by decide +kernel)
theorem rust_entity_allEcb : allEcb Rust.rust_entity.machine = true := allEcb_of (n := 8) (by decide +kernel)

theorem scala_entity_any : anyByte Scala.scala_entity.machine.nfa = true := by decide +kernel
theorem scala_entity_noHold : noHold Scala.scala_entity.machine.nfa = true := noHold_of_frags (by decide +kernel)

theorem scilab_entity_any : anyByte Scilab.scilab_entity.machine.nfa = true := by decide +kernel
theorem scilab_entity_noHold : noHold Scilab.scilab_entity.machine.nfa = true := noHold_of_frags (by decide +kernel)

theorem shell_entity_any : anyByte Shell.shell_entity.machine.nfa = true := by decide +kernel
theorem shell_entity_noHold : noHold Shell.shell_entity.machine.nfa = true := noHold_of_frags (by decide +kernel)

theorem smalltalk_entity_any : anyByte Smalltalk.smalltalk_entity.machine.nfa = true := by decide +kernel
theorem smalltalk_entity_noHold : noHold Smalltalk.smalltalk_entity.machine.nfa = true := noHold_of_frags (by decide +kernel)

theorem sql_entity_any : anyByte Sql.sql_entity.machine.nfa = true := by decide +kernel
theorem sql_entity_noHold : noHold Sql.sql_entity.machine.nfa = true := noHold_of_frags (by decide +kernel)

theorem stratego_entity_any : anyByte Stratego.stratego_entity.machine.nfa = true := by decide +kernel
theorem stratego_entity_noHold : noHold Stratego.stratego_entity.machine.nfa = true := noHold_of_frags (by decide +kernel)

theorem sb_entity_any : anyByte StructuredBasic.sb_entity.machine.nfa = true := by decide +kernel
theorem sb_entity_noHold : noHold StructuredBasic.sb_entity.machine.nfa = true := noHold_of_frags (by decide +kernel)

theorem swift_entity_any : anyByte Swift.swift_entity.machine.nfa = true := by decide +kernel
theorem swift_entity_noHold : noHold Swift.swift_entity.machine.nfa = true := noHold_of_frags (by decide +kernel)

theorem tcl_entity_any : anyByte Tcl.tcl_entity.machine.nfa = true := by decide +kernel
theorem tcl_entity_noHold : noHold Tcl.tcl_entity.machine.nfa = true := noHold_of_frags (by decide +kernel)

theorem tex_entity_any : anyByte Tex.tex_entity.machine.nfa = true := by decide +kernel
theorem tex_entity_noHold : noHold Tex.tex_entity.machine.nfa = true := noHold_of_frags (by decide +kernel)

theorem tex_dtx_entity_any : anyByte TexDtx.tex_dtx_entity.machine.nfa = true := by decide +kernel
theorem tex_dtx_entity_noHold : noHold TexDtx.tex_dtx_entity.machine.nfa = true := noHold_of_frags (by decide +kernel)

theorem umple_entity_any : anyByte Umple.umple_entity.machine.nfa = true := by decide +kernel
theorem umple_entity_noHold : noHold Umple.umple_entity.machine.nfa = true := noHold_of_frags (by decide +kernel)

theorem unrealscript_entity_any : anyByte Unrealscript.unrealscript_entity.machine.nfa = true := by decide +kernel
theorem unrealscript_entity_noHold : noHold Unrealscript.unrealscript_entity.machine.nfa = true := noHold_of_frags (by decide +kernel)

theorem vhdl_entity_any : anyByte Vhdl.vhdl_entity.machine.nfa = true := by decide +kernel
theorem vhdl_entity_noHold : noHold Vhdl.vhdl_entity.machine.nfa = true := noHold_of_frags (by decide +kernel)

theorem vb_entity_any : anyByte VisualBasic.vb_entity.machine.nfa = true := by decide +kernel
theorem vb_entity_noHold : noHold VisualBasic.vb_entity.machine.nfa = true := noHold_of_frags (by decide +kernel)

theorem xaml_entity_any : anyByte Xaml.xaml_entity.machine.nfa = true := by decide +kernel
theorem xaml_entity_noHold : noHold Xaml.xaml_entity.machine.nfa = true := noHold_of_frags (by decide +kernel)

theorem xml_entity_any : anyByte Xml.xml_entity.machine.nfa = true := by decide +kernel
theorem xml_entity_noHold : noHold Xml.xml_entity.machine.nfa = true := noHold_of_frags (by decide +kernel)

theorem xmlschema_entity_any : anyByte Xmlschema.xmlschema_entity.machine.nfa = true := by decide +kernel
theorem xmlschema_entity_noHold : noHold Xmlschema.xmlschema_entity.machine.nfa = true := noHold_of_frags (by decide +kernel)

theorem xslt_entity_any : anyByte Xslt.xslt_entity.machine.nfa = true := by decide +kernel
theorem xslt_entity_noHold : noHold Xslt.xslt_entity.machine.nfa = true := noHold_of_frags (by decide +kernel)

theorem entityHold : ∀ S ∈ entityScanners, holdOk S.machine.nfa = true ∧ anyByte S.machine.nfa = true :=
  (List.forall_mem_cons.mpr ⟨⟨holdOk_of_noHold as_entity_noHold, as_entity_any⟩,
  (List.forall_mem_cons.mpr ⟨⟨holdOk_of_noHold ada_entity_noHold, ada_entity_any⟩,
  (List.forall_mem_cons.mpr ⟨⟨holdOk_of_noHold ampl_entity_noHold, ampl_entity_any⟩,
  (List.forall_mem_cons.mpr ⟨⟨holdOk_of_noHold asm_entity_noHold, asm_entity_any⟩,
  (List.forall_mem_cons.mpr ⟨⟨holdOk_of_noHold augeas_entity_noHold, augeas_entity_any⟩,
  (List.forall_mem_cons.mpr ⟨⟨holdOk_of_noHold ac_entity_noHold, ac_entity_any⟩,
  (List.forall_mem_cons.mpr ⟨⟨holdOk_of_noHold am_entity_noHold, am_entity_any⟩,
  (List.forall_mem_cons.mpr ⟨⟨holdOk_of_noHold awk_entity_noHold, awk_entity_any⟩,
  (List.forall_mem_cons.mpr ⟨⟨holdOk_of_noHold bat_entity_noHold, bat_entity_any⟩,
  (List.forall_mem_cons.mpr ⟨⟨holdOk_of_noHold blitzmax_entity_noHold, blitzmax_entity_any⟩,
  (List.forall_mem_cons.mpr ⟨⟨holdOk_of_noHold boo_entity_noHold, boo_entity_any⟩,
  (List.forall_mem_cons.mpr ⟨⟨holdOk_of_noHold c_entity_noHold, c_entity_any⟩,
  (List.forall_mem_cons.mpr ⟨⟨holdOk_of_noHold chai_entity_noHold, chai_entity_any⟩,
  (List.forall_mem_cons.mpr ⟨⟨holdOk_of_noHold cb_entity_noHold, cb_entity_any⟩,
  (List.forall_mem_cons.mpr ⟨⟨holdOk_of_noHold cs_entity_noHold, cs_entity_any⟩,
  (List.forall_mem_cons.mpr ⟨⟨holdOk_of_noHold cmake_entity_noHold, cmake_entity_any⟩,
  (List.forall_mem_cons.mpr ⟨⟨holdOk_of_noHold coq_entity_noHold, coq_entity_any⟩,
  (List.forall_mem_cons.mpr ⟨⟨holdOk_of_noHold crystal_entity_noHold, crystal_entity_any⟩,
  (List.forall_mem_cons.mpr ⟨⟨holdOk_of_noHold css_entity_noHold, css_entity_any⟩,
  (List.forall_mem_cons.mpr ⟨⟨holdOk_of_noHold d_entity_noHold, d_entity_any⟩,
  (List.forall_mem_cons.mpr ⟨⟨holdOk_of_noHold dart_entity_noHold, dart_entity_any⟩,
  (List.forall_mem_cons.mpr ⟨⟨holdOk_of_noHold dcl_entity_noHold, dcl_entity_any⟩,
  (List.forall_mem_cons.mpr ⟨⟨holdOk_of_noHold dylan_entity_noHold, dylan_entity_any⟩,
  (List.forall_mem_cons.mpr ⟨⟨holdOk_of_noHold ebuild_entity_noHold, ebuild_entity_any⟩,
  (List.forall_mem_cons.mpr ⟨⟨holdOk_of_noHold eiffel_entity_noHold, eiffel_entity_any⟩,
  (List.forall_mem_cons.mpr ⟨⟨elm_entity_hold, elm_entity_any⟩,
  (List.forall_mem_cons.mpr ⟨⟨holdOk_of_noHold erlang_entity_noHold, erlang_entity_any⟩,
  (List.forall_mem_cons.mpr ⟨⟨holdOk_of_noHold exheres_entity_noHold, exheres_entity_any⟩,
  (List.forall_mem_cons.mpr ⟨⟨holdOk_of_noHold forth_entity_noHold, forth_entity_any⟩,
  (List.forall_mem_cons.mpr ⟨⟨holdOk_of_noHold ffixed_entity_noHold, ffixed_entity_any⟩,
  (List.forall_mem_cons.mpr ⟨⟨holdOk_of_noHold ffree_entity_noHold, ffree_entity_any⟩,
  (List.forall_mem_cons.mpr ⟨⟨holdOk_of_noHold fsharp_entity_noHold, fsharp_entity_any⟩,
  (List.forall_mem_cons.mpr ⟨⟨holdOk_of_noHold glsl_entity_noHold, glsl_entity_any⟩,
  (List.forall_mem_cons.mpr ⟨⟨holdOk_of_noHold golang_entity_noHold, golang_entity_any⟩,
  (List.forall_mem_cons.mpr ⟨⟨holdOk_of_noHold grace_entity_noHold, grace_entity_any⟩,
  (List.forall_mem_cons.mpr ⟨⟨holdOk_of_noHold groovy_entity_noHold, groovy_entity_any⟩,
  (List.forall_mem_cons.mpr ⟨⟨haskell_entity_hold, haskell_entity_any⟩,
  (List.forall_mem_cons.mpr ⟨⟨holdOk_of_noHold hx_entity_noHold, hx_entity_any⟩,
  (List.forall_mem_cons.mpr ⟨⟨holdOk_of_noHold idl_pvwave_entity_noHold, idl_pvwave_entity_any⟩,
  (List.forall_mem_cons.mpr ⟨⟨holdOk_of_noHold jam_entity_noHold, jam_entity_any⟩,
  (List.forall_mem_cons.mpr ⟨⟨holdOk_of_noHold java_entity_noHold, java_entity_any⟩,
  (List.forall_mem_cons.mpr ⟨⟨holdOk_of_noHold js_entity_noHold, js_entity_any⟩,
  (List.forall_mem_cons.mpr ⟨⟨holdOk_of_noHold julia_entity_noHold, julia_entity_any⟩,
  (List.forall_mem_cons.mpr ⟨⟨holdOk_of_noHold kotlin_entity_noHold, kotlin_entity_any⟩,
  (List.forall_mem_cons.mpr ⟨⟨holdOk_of_noHold lisp_entity_noHold, lisp_entity_any⟩,
  (List.forall_mem_cons.mpr ⟨⟨holdOk_of_noHold livecode_entity_noHold, livecode_entity_any⟩,
  (List.forall_mem_cons.mpr ⟨⟨holdOk_of_noHold logtalk_entity_noHold, logtalk_entity_any⟩,
  (List.forall_mem_cons.mpr ⟨⟨holdOk_of_noHold lua_entity_noHold, lua_entity_any⟩,
  (List.forall_mem_cons.mpr ⟨⟨holdOk_of_noHold make_entity_noHold, make_entity_any⟩,
  (List.forall_mem_cons.mpr ⟨⟨holdOk_of_noHold mathematica_entity_noHold, mathematica_entity_any⟩,
  (List.forall_mem_cons.mpr ⟨⟨matlab_entity_hold, matlab_entity_any⟩,
  (List.forall_mem_cons.mpr ⟨⟨holdOk_of_noHold metafont_entity_noHold, metafont_entity_any⟩,
  (List.forall_mem_cons.mpr ⟨⟨holdOk_of_noHold metapost_entity_noHold, metapost_entity_any⟩,
  (List.forall_mem_cons.mpr ⟨⟨holdOk_of_noHold modelica_entity_noHold, modelica_entity_any⟩,
  (List.forall_mem_cons.mpr ⟨⟨holdOk_of_noHold modula2_entity_noHold, modula2_entity_any⟩,
  (List.forall_mem_cons.mpr ⟨⟨holdOk_of_noHold modula3_entity_noHold, modula3_entity_any⟩,
  (List.forall_mem_cons.mpr ⟨⟨holdOk_of_noHold nsis_entity_noHold, nsis_entity_any⟩,
  (List.forall_mem_cons.mpr ⟨⟨holdOk_of_noHold oberon_entity_noHold, oberon_entity_any⟩,
  (List.forall_mem_cons.mpr ⟨⟨holdOk_of_noHold objc_entity_noHold, objc_entity_any⟩,
  (List.forall_mem_cons.mpr ⟨⟨holdOk_of_noHold objj_entity_noHold, objj_entity_any⟩,
  (List.forall_mem_cons.mpr ⟨⟨holdOk_of_noHold ocaml_entity_noHold, ocaml_entity_any⟩,
  (List.forall_mem_cons.mpr ⟨⟨octave_entity_hold, octave_entity_any⟩,
  (List.forall_mem_cons.mpr ⟨⟨holdOk_of_noHold pascal_entity_noHold, pascal_entity_any⟩,
  (List.forall_mem_cons.mpr ⟨⟨holdOk_of_noHold php_entity_noHold, php_entity_any⟩,
  (List.forall_mem_cons.mpr ⟨⟨holdOk_of_noHold pike_entity_noHold, pike_entity_any⟩,
  (List.forall_mem_cons.mpr ⟨⟨holdOk_of_noHold postscript_entity_noHold, postscript_entity_any⟩,
  (List.forall_mem_cons.mpr ⟨⟨holdOk_of_noHold powershell_entity_noHold, powershell_entity_any⟩,
  (List.forall_mem_cons.mpr ⟨⟨holdOk_of_noHold prolog_entity_noHold, prolog_entity_any⟩,
  (List.forall_mem_cons.mpr ⟨⟨holdOk_of_noHold puppet_entity_noHold, puppet_entity_any⟩,
  (List.forall_mem_cons.mpr ⟨⟨holdOk_of_noHold python_entity_noHold, python_entity_any⟩,
  (List.forall_mem_cons.mpr ⟨⟨holdOk_of_noHold r_entity_noHold, r_entity_any⟩,
  (List.forall_mem_cons.mpr ⟨⟨holdOk_of_noHold rebol_entity_noHold, rebol_entity_any⟩,
  (List.forall_mem_cons.mpr ⟨⟨holdOk_of_noHold rexx_entity_noHold, rexx_entity_any⟩,
  (List.forall_mem_cons.mpr ⟨⟨holdOk_of_noHold ruby_entity_noHold, ruby_entity_any⟩,
  (List.forall_mem_cons.mpr ⟨⟨holdOk_of_noHold rust_entity_noHold, rust_entity_any⟩,
  (List.forall_mem_cons.mpr ⟨⟨holdOk_of_noHold scala_entity_noHold, scala_entity_any⟩,
  (List.forall_mem_cons.mpr ⟨⟨holdOk_of_noHold scilab_entity_noHold, scilab_entity_any⟩,
  (List.forall_mem_cons.mpr ⟨⟨holdOk_of_noHold shell_entity_noHold, shell_entity_any⟩,
  (List.forall_mem_cons.mpr ⟨⟨holdOk_of_noHold smalltalk_entity_noHold, smalltalk_entity_any⟩,
  (List.forall_mem_cons.mpr ⟨⟨holdOk_of_noHold sql_entity_noHold, sql_entity_any⟩,
  (List.forall_mem_cons.mpr ⟨⟨holdOk_of_noHold stratego_entity_noHold, stratego_entity_any⟩,
  (List.forall_mem_cons.mpr ⟨⟨holdOk_of_noHold sb_entity_noHold, sb_entity_any⟩,
  (List.forall_mem_cons.mpr ⟨⟨holdOk_of_noHold swift_entity_noHold, swift_entity_any⟩,
  (List.forall_mem_cons.mpr ⟨⟨holdOk_of_noHold tcl_entity_noHold, tcl_entity_any⟩,
  (List.forall_mem_cons.mpr ⟨⟨holdOk_of_noHold tex_entity_noHold, tex_entity_any⟩,
  (List.forall_mem_cons.mpr ⟨⟨holdOk_of_noHold tex_dtx_entity_noHold, tex_dtx_entity_any⟩,
  (List.forall_mem_cons.mpr ⟨⟨holdOk_of_noHold umple_entity_noHold, umple_entity_any⟩,
  (List.forall_mem_cons.mpr ⟨⟨holdOk_of_noHold unrealscript_entity_noHold, unrealscript_entity_any⟩,
  (List.forall_mem_cons.mpr ⟨⟨holdOk_of_noHold vhdl_entity_noHold, vhdl_entity_any⟩,
  (List.forall_mem_cons.mpr ⟨⟨holdOk_of_noHold vb_entity_noHold, vb_entity_any⟩,
  (List.forall_mem_cons.mpr ⟨⟨holdOk_of_noHold xaml_entity_noHold, xaml_entity_any⟩,
  (List.forall_mem_cons.mpr ⟨⟨holdOk_of_noHold xml_entity_noHold, xml_entity_any⟩,
  (List.forall_mem_cons.mpr ⟨⟨holdOk_of_noHold xmlschema_entity_noHold, xmlschema_entity_any⟩,
  (List.forall_mem_cons.mpr ⟨⟨holdOk_of_noHold xslt_entity_noHold, xslt_entity_any⟩,
  (fun _ h => nomatch h)⟩)⟩)⟩)⟩)⟩)⟩)⟩)⟩)⟩)⟩)⟩)⟩)⟩)⟩)⟩)⟩)⟩)⟩)⟩)⟩)⟩)⟩)⟩)⟩)⟩)⟩)⟩)⟩)⟩)⟩)⟩)⟩)⟩)⟩)⟩)⟩)⟩)⟩)⟩)⟩)⟩)⟩)⟩)⟩)⟩)⟩)⟩)⟩)⟩)⟩)⟩)⟩)⟩)⟩)⟩)⟩)⟩)⟩)⟩)⟩)⟩)⟩)⟩)⟩)⟩)⟩)⟩)⟩)⟩)⟩)⟩)⟩)⟩)⟩)⟩)⟩)⟩)⟩)⟩)⟩)⟩)⟩)⟩)⟩)⟩)⟩)⟩)⟩)⟩)⟩)⟩)⟩)⟩)⟩)

/-- The entity scanners that never step back. -/
def forwardEntities : List Scanner := [
  Actionscript.as_entity, Ada.ada_entity, Ampl.ampl_entity, Assembler.asm_entity, Augeas.augeas_entity, Autoconf.ac_entity, Automake.am_entity, Awk.awk_entity, Bat.bat_entity, Blitzmax.blitzmax_entity, Boo.boo_entity, C.c_entity, Chaiscript.chai_entity, ClassicBasic.cb_entity, Clearsilver.cs_entity, Cmake.cmake_entity, Coq.coq_entity, Crystal.crystal_entity, Css.css_entity, D.d_entity, Dart.dart_entity, Dcl.dcl_entity, Dylan.dylan_entity, Ebuild.ebuild_entity, Eiffel.eiffel_entity, Erlang.erlang_entity, Exheres.exheres_entity, Forth.forth_entity, Fortranfixed.ffixed_entity, Fortranfree.ffree_entity, Fsharp.fsharp_entity, Glsl.glsl_entity, Golang.golang_entity, Grace.grace_entity, Groovy.groovy_entity, Haxe.hx_entity, IdlPvwave.idl_pvwave_entity, Jam.jam_entity, Java.java_entity, Javascript.js_entity, Julia.julia_entity, Kotlin.kotlin_entity, Lisp.lisp_entity, Livecode.livecode_entity, Logtalk.logtalk_entity, Lua.lua_entity, Makefile.make_entity, Mathematica.mathematica_entity, Metafont.metafont_entity, Metapost.metapost_entity, Modelica.modelica_entity, Modula2.modula2_entity, Modula3.modula3_entity, Nsis.nsis_entity, Oberon.oberon_entity, ObjectiveC.objc_entity, ObjectiveJ.objj_entity, Ocaml.ocaml_entity, Pascal.pascal_entity, Php.php_entity, Pike.pike_entity, Postscript.postscript_entity, Powershell.powershell_entity, Prolog.prolog_entity, Puppet.puppet_entity, Python.python_entity, R.r_entity, Rebol.rebol_entity, Rexx.rexx_entity, Ruby.ruby_entity, Rust.rust_entity, Scala.scala_entity, Scilab.scilab_entity, Shell.shell_entity, Smalltalk.smalltalk_entity, Sql.sql_entity, Stratego.stratego_entity, StructuredBasic.sb_entity, Swift.swift_entity, Tcl.tcl_entity, Tex.tex_entity, TexDtx.tex_dtx_entity, Umple.umple_entity, Unrealscript.unrealscript_entity, Vhdl.vhdl_entity, VisualBasic.vb_entity, Xaml.xaml_entity, Xml.xml_entity, Xmlschema.xmlschema_entity, Xslt.xslt_entity]

theorem forward_noHold : ∀ S ∈ forwardEntities, noHold S.machine.nfa = true ∧ anyByte S.machine.nfa = true :=
  (List.forall_mem_cons.mpr ⟨⟨as_entity_noHold, as_entity_any⟩,
  (List.forall_mem_cons.mpr ⟨⟨ada_entity_noHold, ada_entity_any⟩,
  (List.forall_mem_cons.mpr ⟨⟨ampl_entity_noHold, ampl_entity_any⟩,
  (List.forall_mem_cons.mpr ⟨⟨asm_entity_noHold, asm_entity_any⟩,
  (List.forall_mem_cons.mpr ⟨⟨augeas_entity_noHold, augeas_entity_any⟩,
  (List.forall_mem_cons.mpr ⟨⟨ac_entity_noHold, ac_entity_any⟩,
  (List.forall_mem_cons.mpr ⟨⟨am_entity_noHold, am_entity_any⟩,
  (List.forall_mem_cons.mpr ⟨⟨awk_entity_noHold, awk_entity_any⟩,
  (List.forall_mem_cons.mpr ⟨⟨bat_entity_noHold, bat_entity_any⟩,
  (List.forall_mem_cons.mpr ⟨⟨blitzmax_entity_noHold, blitzmax_entity_any⟩,
  (List.forall_mem_cons.mpr ⟨⟨boo_entity_noHold, boo_entity_any⟩,
  (List.forall_mem_cons.mpr ⟨⟨c_entity_noHold, c_entity_any⟩,
  (List.forall_mem_cons.mpr ⟨⟨chai_entity_noHold, chai_entity_any⟩,
  (List.forall_mem_cons.mpr ⟨⟨cb_entity_noHold, cb_entity_any⟩,
  (List.forall_mem_cons.mpr ⟨⟨cs_entity_noHold, cs_entity_any⟩,
  (List.forall_mem_cons.mpr ⟨⟨cmake_entity_noHold, cmake_entity_any⟩,
  (List.forall_mem_cons.mpr ⟨⟨coq_entity_noHold, coq_entity_any⟩,
  (List.forall_mem_cons.mpr ⟨⟨crystal_entity_noHold, crystal_entity_any⟩,
  (List.forall_mem_cons.mpr ⟨⟨css_entity_noHold, css_entity_any⟩,
  (List.forall_mem_cons.mpr ⟨⟨d_entity_noHold, d_entity_any⟩,
  (List.forall_mem_cons.mpr ⟨⟨dart_entity_noHold, dart_entity_any⟩,
  (List.forall_mem_cons.mpr ⟨⟨dcl_entity_noHold, dcl_entity_any⟩,
  (List.forall_mem_cons.mpr ⟨⟨dylan_entity_noHold, dylan_entity_any⟩,
  (List.forall_mem_cons.mpr ⟨⟨ebuild_entity_noHold, ebuild_entity_any⟩,
  (List.forall_mem_cons.mpr ⟨⟨eiffel_entity_noHold, eiffel_entity_any⟩,
  (List.forall_mem_cons.mpr ⟨⟨erlang_entity_noHold, erlang_entity_any⟩,
  (List.forall_mem_cons.mpr ⟨⟨exheres_entity_noHold, exheres_entity_any⟩,
  (List.forall_mem_cons.mpr ⟨⟨forth_entity_noHold, forth_entity_any⟩,
  (List.forall_mem_cons.mpr ⟨⟨ffixed_entity_noHold, ffixed_entity_any⟩,
  (List.forall_mem_cons.mpr ⟨⟨ffree_entity_noHold, ffree_entity_any⟩,
  (List.forall_mem_cons.mpr ⟨⟨fsharp_entity_noHold, fsharp_entity_any⟩,
  (List.forall_mem_cons.mpr ⟨⟨glsl_entity_noHold, glsl_entity_any⟩,
  (List.forall_mem_cons.mpr ⟨⟨golang_entity_noHold, golang_entity_any⟩,
  (List.forall_mem_cons.mpr ⟨⟨grace_entity_noHold, grace_entity_any⟩,
  (List.forall_mem_cons.mpr ⟨⟨groovy_entity_noHold, groovy_entity_any⟩,
  (List.forall_mem_cons.mpr ⟨⟨hx_entity_noHold, hx_entity_any⟩,
  (List.forall_mem_cons.mpr ⟨⟨idl_pvwave_entity_noHold, idl_pvwave_entity_any⟩,
  (List.forall_mem_cons.mpr ⟨⟨jam_entity_noHold, jam_entity_any⟩,
  (List.forall_mem_cons.mpr ⟨⟨java_entity_noHold, java_entity_any⟩,
  (List.forall_mem_cons.mpr ⟨⟨js_entity_noHold, js_entity_any⟩,
  (List.forall_mem_cons.mpr ⟨⟨julia_entity_noHold, julia_entity_any⟩,
  (List.forall_mem_cons.mpr ⟨⟨kotlin_entity_noHold, kotlin_entity_any⟩,
  (List.forall_mem_cons.mpr ⟨⟨lisp_entity_noHold, lisp_entity_any⟩,
  (List.forall_mem_cons.mpr ⟨⟨livecode_entity_noHold, livecode_entity_any⟩,
  (List.forall_mem_cons.mpr ⟨⟨logtalk_entity_noHold, logtalk_entity_any⟩,
  (List.forall_mem_cons.mpr ⟨⟨lua_entity_noHold, lua_entity_any⟩,
  (List.forall_mem_cons.mpr ⟨⟨make_entity_noHold, make_entity_any⟩,
  (List.forall_mem_cons.mpr ⟨⟨mathematica_entity_noHold, mathematica_entity_any⟩,
  (List.forall_mem_cons.mpr ⟨⟨metafont_entity_noHold, metafont_entity_any⟩,
  (List.forall_mem_cons.mpr ⟨⟨metapost_entity_noHold, metapost_entity_any⟩,
  (List.forall_mem_cons.mpr ⟨⟨modelica_entity_noHold, modelica_entity_any⟩,
  (List.forall_mem_cons.mpr ⟨⟨modula2_entity_noHold, modula2_entity_any⟩,
  (List.forall_mem_cons.mpr ⟨⟨modula3_entity_noHold, modula3_entity_any⟩,
  (List.forall_mem_cons.mpr ⟨⟨nsis_entity_noHold, nsis_entity_any⟩,
  (List.forall_mem_cons.mpr ⟨⟨oberon_entity_noHold, oberon_entity_any⟩,
  (List.forall_mem_cons.mpr ⟨⟨objc_entity_noHold, objc_entity_any⟩,
  (List.forall_mem_cons.mpr ⟨⟨objj_entity_noHold, objj_entity_any⟩,
  (List.forall_mem_cons.mpr ⟨⟨ocaml_entity_noHold, ocaml_entity_any⟩,
  (List.forall_mem_cons.mpr ⟨⟨pascal_entity_noHold, pascal_entity_any⟩,
  (List.forall_mem_cons.mpr ⟨⟨php_entity_noHold, php_entity_any⟩,
  (List.forall_mem_cons.mpr ⟨⟨pike_entity_noHold, pike_entity_any⟩,
  (List.forall_mem_cons.mpr ⟨⟨postscript_entity_noHold, postscript_entity_any⟩,
  (List.forall_mem_cons.mpr ⟨⟨powershell_entity_noHold, powershell_entity_any⟩,
  (List.forall_mem_cons.mpr ⟨⟨prolog_entity_noHold, prolog_entity_any⟩,
  (List.forall_mem_cons.mpr ⟨⟨puppet_entity_noHold, puppet_entity_any⟩,
  (List.forall_mem_cons.mpr ⟨⟨python_entity_noHold, python_entity_any⟩,
  (List.forall_mem_cons.mpr ⟨⟨r_entity_noHold, r_entity_any⟩,
  (List.forall_mem_cons.mpr ⟨⟨rebol_entity_noHold, rebol_entity_any⟩,
  (List.forall_mem_cons.mpr ⟨⟨rexx_entity_noHold, rexx_entity_any⟩,
  (List.forall_mem_cons.mpr ⟨⟨ruby_entity_noHold, ruby_entity_any⟩,
  (List.forall_mem_cons.mpr ⟨⟨rust_entity_noHold, rust_entity_any⟩,
  (List.forall_mem_cons.mpr ⟨⟨scala_entity_noHold, scala_entity_any⟩,
  (List.forall_mem_cons.mpr ⟨⟨scilab_entity_noHold, scilab_entity_any⟩,
  (List.forall_mem_cons.mpr ⟨⟨shell_entity_noHold, shell_entity_any⟩,
  (List.forall_mem_cons.mpr ⟨⟨smalltalk_entity_noHold, smalltalk_entity_any⟩,
  (List.forall_mem_cons.mpr ⟨⟨sql_entity_noHold, sql_entity_any⟩,
  (List.forall_mem_cons.mpr ⟨⟨stratego_entity_noHold, stratego_entity_any⟩,
  (List.forall_mem_cons.mpr ⟨⟨sb_entity_noHold, sb_entity_any⟩,
  (List.forall_mem_cons.mpr ⟨⟨swift_entity_noHold, swift_entity_any⟩,
  (List.forall_mem_cons.mpr ⟨⟨tcl_entity_noHold, tcl_entity_any⟩,
  (List.forall_mem_cons.mpr ⟨⟨tex_entity_noHold, tex_entity_any⟩,
  (List.forall_mem_cons.mpr ⟨⟨tex_dtx_entity_noHold, tex_dtx_entity_any⟩,
  (List.forall_mem_cons.mpr ⟨⟨umple_entity_noHold, umple_entity_any⟩,
  (List.forall_mem_cons.mpr ⟨⟨unrealscript_entity_noHold, unrealscript_entity_any⟩,
  (List.forall_mem_cons.mpr ⟨⟨vhdl_entity_noHold, vhdl_entity_any⟩,
  (List.forall_mem_cons.mpr ⟨⟨vb_entity_noHold, vb_entity_any⟩,
  (List.forall_mem_cons.mpr ⟨⟨xaml_entity_noHold, xaml_entity_any⟩,
  (List.forall_mem_cons.mpr ⟨⟨xml_entity_noHold, xml_entity_any⟩,
  (List.forall_mem_cons.mpr ⟨⟨xmlschema_entity_noHold, xmlschema_entity_any⟩,
  (List.forall_mem_cons.mpr ⟨⟨xslt_entity_noHold, xslt_entity_any⟩,
  (fun _ h => nomatch h)⟩)⟩)⟩)⟩)⟩)⟩)⟩)⟩)⟩)⟩)⟩)⟩)⟩)⟩)⟩)⟩)⟩)⟩)⟩)⟩)⟩)⟩)⟩)⟩)⟩)⟩)⟩)⟩)⟩)⟩)⟩)⟩)⟩)⟩)⟩)⟩)⟩)⟩)⟩)⟩)⟩)⟩)⟩)⟩)⟩)⟩)⟩)⟩)⟩)⟩)⟩)⟩)⟩)⟩)⟩)⟩)⟩)⟩)⟩)⟩)⟩)⟩)⟩)⟩)⟩)⟩)⟩)⟩)⟩)⟩)⟩)⟩)⟩)⟩)⟩)⟩)⟩)⟩)⟩)⟩)⟩)⟩)⟩)⟩)⟩)⟩)⟩)⟩)⟩)⟩)

/-- The entity scanners all of whose patterns report their token. -/
def tilingEntities : List Scanner := [
  C.c_entity, Fsharp.fsharp_entity, Glsl.glsl_entity, Golang.golang_entity, Kotlin.kotlin_entity, Lua.lua_entity, Rebol.rebol_entity, Rust.rust_entity]

theorem tiling_ecb : ∀ S ∈ tilingEntities, noHold S.machine.nfa = true ∧ anyByte S.machine.nfa = true ∧ allEcb S.machine = true :=
  (List.forall_mem_cons.mpr ⟨⟨c_entity_noHold, c_entity_any, c_entity_allEcb⟩,
  (List.forall_mem_cons.mpr ⟨⟨fsharp_entity_noHold, fsharp_entity_any, fsharp_entity_allEcb⟩,
  (List.forall_mem_cons.mpr ⟨⟨glsl_entity_noHold, glsl_entity_any, glsl_entity_allEcb⟩,
  (List.forall_mem_cons.mpr ⟨⟨golang_entity_noHold, golang_entity_any, golang_entity_allEcb⟩,
  (List.forall_mem_cons.mpr ⟨⟨kotlin_entity_noHold, kotlin_entity_any, kotlin_entity_allEcb⟩,
  (List.forall_mem_cons.mpr ⟨⟨lua_entity_noHold, lua_entity_any, lua_entity_allEcb⟩,
  (List.forall_mem_cons.mpr ⟨⟨rebol_entity_noHold, rebol_entity_any, rebol_entity_allEcb⟩,
  (List.forall_mem_cons.mpr ⟨⟨rust_entity_noHold, rust_entity_any, rust_entity_allEcb⟩,
  (fun _ h => nomatch h)⟩)⟩)⟩)⟩)⟩)⟩)⟩)⟩)

end Ohcount.Cert
