import Verif.Gram.G1
import Verif.Gram.G2
import Verif.Gram.G3
import Verif.Gram.G4
import Verif.Gram.G5
import Verif.Gram.G6
import Verif.Gram.G7
import Verif.Gram.G8
import Verif.Gram.G9
import Verif.Gram.G10
import Verif.Gram.G11
import Verif.Gram.G12

/-! The parse functions whose scanners are modelled. Generated by tools/gen_grammars.py. -/

namespace Ohcount.Gram
open Ohcount.Ragel

/-- A parse function: its name, the language it reports, its line scanner. -/
structure Parser where
  name : String
  lang : String
  line : Scanner

/-- `parse_actionscript`, src/parsers/actionscript.rl:108-121. -/
def parse_actionscript : Parser := ⟨"parse_actionscript", "actionscript", Actionscript.as_line⟩

/-- `parse_ada`, src/parsers/ada.rl:88-101. -/
def parse_ada : Parser := ⟨"parse_ada", "ada", Ada.ada_line⟩

/-- `parse_ampl`, src/parsers/ampl.rl:96-109. -/
def parse_ampl : Parser := ⟨"parse_ampl", "ampl", Ampl.ampl_line⟩

/-- `parse_assembler`, src/parsers/assembler.rl:101-114. -/
def parse_assembler : Parser := ⟨"parse_assembler", "assembler", Assembler.asm_line⟩

/-- `parse_augeas`, src/parsers/augeas.rl:110-125. -/
def parse_augeas : Parser := ⟨"parse_augeas", "augeas", Augeas.augeas_line⟩

/-- `parse_autoconf`, src/parsers/autoconf.rl:103-118. -/
def parse_autoconf : Parser := ⟨"parse_autoconf", "autoconf", Autoconf.ac_line⟩

/-- `parse_automake`, src/parsers/automake.rl:90-103. -/
def parse_automake : Parser := ⟨"parse_automake", "automake", Automake.am_line⟩

/-- `parse_awk`, src/parsers/awk.rl:90-103. -/
def parse_awk : Parser := ⟨"parse_awk", "awk", Awk.awk_line⟩

/-- `parse_bat`, src/parsers/bat.rl:85-98. -/
def parse_bat : Parser := ⟨"parse_bat", "bat", Bat.bat_line⟩

/-- `parse_bfpp`, src/parsers/bfpp.rl:108-121. -/
def parse_bfpp : Parser := ⟨"parse_bfpp", "bfpp", Bfpp.bfpp_line⟩

/-- `parse_blitzmax`, src/parsers/blitzmax.rl:109-122. -/
def parse_blitzmax : Parser := ⟨"parse_blitzmax", "blitzmax", Blitzmax.blitzmax_line⟩

/-- `parse_boo`, src/parsers/boo.rl:126-141. -/
def parse_boo : Parser := ⟨"parse_boo", "boo", Boo.boo_line⟩

/-- `parse_brainfuck`, src/parsers/brainfuck.rl:89-102. -/
def parse_brainfuck : Parser := ⟨"parse_brainfuck", "brainfuck", Brainfuck.brainfuck_line⟩

/-- `parse_c`, src/parsers/c.rl:165-178. -/
def parse_c : Parser := ⟨"parse_c", "c", C.c_line⟩

/-- `parse_cpp`, src/parsers/c.rl:182-190. -/
def parse_cpp : Parser := ⟨"parse_cpp", "cpp", C.c_line⟩

/-- `parse_csharp`, src/parsers/c.rl:193-201. -/
def parse_csharp : Parser := ⟨"parse_csharp", "csharp", C.c_line⟩

/-- `parse_vala`, src/parsers/c.rl:204-212. -/
def parse_vala : Parser := ⟨"parse_vala", "vala", C.c_line⟩

/-- `parse_genie`, src/parsers/c.rl:215-223. -/
def parse_genie : Parser := ⟨"parse_genie", "genie", C.c_line⟩

/-- `parse_cuda`, src/parsers/c.rl:226-234. -/
def parse_cuda : Parser := ⟨"parse_cuda", "cuda", C.c_line⟩

/-- `parse_ec`, src/parsers/c.rl:237-245. -/
def parse_ec : Parser := ⟨"parse_ec", "ec", C.c_line⟩

/-- `parse_chaiscript`, src/parsers/chaiscript.rl:123-136. -/
def parse_chaiscript : Parser := ⟨"parse_chaiscript", "chaiscript", Chaiscript.chai_line⟩

/-- `parse_classic_basic`, src/parsers/classic_basic.rl:86-99. -/
def parse_classic_basic : Parser := ⟨"parse_classic_basic", "classic_basic", ClassicBasic.cb_line⟩

/-- `parse_clearsilver`, src/parsers/clearsilver.rl:88-101. -/
def parse_clearsilver : Parser := ⟨"parse_clearsilver", "clearsilver", Clearsilver.cs_line⟩

/-- `parse_cmake`, src/parsers/cmake.rl:108-121. -/
def parse_cmake : Parser := ⟨"parse_cmake", "cmake", Cmake.cmake_line⟩

/-- `parse_coq`, src/parsers/coq.rl:116-131. -/
def parse_coq : Parser := ⟨"parse_coq", "coq", Coq.coq_line⟩

/-- `parse_crystal`, src/parsers/crystal.rl:160-173. -/
def parse_crystal : Parser := ⟨"parse_crystal", "crystal", Crystal.crystal_line⟩

/-- `parse_css`, src/parsers/css.rl:117-130. -/
def parse_css : Parser := ⟨"parse_css", "css", Css.css_line⟩

/-- `parse_d`, src/parsers/d.rl:160-175. -/
def parse_d : Parser := ⟨"parse_d", "dmd", D.d_line⟩

/-- `parse_dart`, src/parsers/dart.rl:101-114. -/
def parse_dart : Parser := ⟨"parse_dart", "dart", Dart.dart_line⟩

/-- `parse_dcl`, src/parsers/dcl.rl:90-103. -/
def parse_dcl : Parser := ⟨"parse_dcl", "dcl", Dcl.dcl_line⟩

/-- `parse_dylan`, src/parsers/dylan.rl:101-114. -/
def parse_dylan : Parser := ⟨"parse_dylan", "dylan", Dylan.dylan_line⟩

/-- `parse_ebuild`, src/parsers/ebuild.rl:91-104. -/
def parse_ebuild : Parser := ⟨"parse_ebuild", "ebuild", Ebuild.ebuild_line⟩

/-- `parse_eiffel`, src/parsers/eiffel.rl:87-100. -/
def parse_eiffel : Parser := ⟨"parse_eiffel", "eiffel", Eiffel.eiffel_line⟩

/-- `parse_elm`, src/parsers/elm.rl:127-142. -/
def parse_elm : Parser := ⟨"parse_elm", "elm", Elm.elm_line⟩

/-- `parse_erlang`, src/parsers/erlang.rl:91-104. -/
def parse_erlang : Parser := ⟨"parse_erlang", "erlang", Erlang.erlang_line⟩

/-- `parse_exheres`, src/parsers/exheres.rl:91-104. -/
def parse_exheres : Parser := ⟨"parse_exheres", "exheres", Exheres.exheres_line⟩

/-- `parse_factor`, src/parsers/factor.rl:90-103. -/
def parse_factor : Parser := ⟨"parse_factor", "factor", Factor.factor_line⟩

/-- `parse_forth`, src/parsers/forth.rl:100-113. -/
def parse_forth : Parser := ⟨"parse_forth", "forth", Forth.forth_line⟩

/-- `parse_fortranfixed`, src/parsers/fortranfixed.rl:89-102. -/
def parse_fortranfixed : Parser := ⟨"parse_fortranfixed", "fortranfixed", Fortranfixed.ffixed_line⟩

/-- `parse_fortranfree`, src/parsers/fortranfree.rl:103-116. -/
def parse_fortranfree : Parser := ⟨"parse_fortranfree", "fortranfree", Fortranfree.ffree_line⟩

/-- `parse_fsharp`, src/parsers/fsharp.rl:166-179. -/
def parse_fsharp : Parser := ⟨"parse_fsharp", "fsharp", Fsharp.fsharp_line⟩

/-- `parse_glsl`, src/parsers/glsl.rl:168-181. -/
def parse_glsl : Parser := ⟨"parse_glsl", "glsl", Glsl.glsl_line⟩

/-- `parse_golang`, src/parsers/golang.rl:165-178. -/
def parse_golang : Parser := ⟨"parse_golang", "golang", Golang.golang_line⟩

/-- `parse_grace`, src/parsers/grace.rl:96-109. -/
def parse_grace : Parser := ⟨"parse_grace", "grace", Grace.grace_line⟩

/-- `parse_groovy`, src/parsers/groovy.rl:126-139. -/
def parse_groovy : Parser := ⟨"parse_groovy", "groovy", Groovy.groovy_line⟩

/-- `parse_haskell`, src/parsers/haskell.rl:127-142. -/
def parse_haskell : Parser := ⟨"parse_haskell", "haskell", Haskell.haskell_line⟩

/-- `parse_haxe`, src/parsers/haxe.rl:108-121. -/
def parse_haxe : Parser := ⟨"parse_haxe", "haxe", Haxe.hx_line⟩

/-- `parse_idl_pvwave`, src/parsers/idl_pvwave.rl:86-98. -/
def parse_idl_pvwave : Parser := ⟨"parse_idl_pvwave", "idl_pvwave", IdlPvwave.idl_pvwave_line⟩

/-- `parse_jam`, src/parsers/jam.rl:109-122. -/
def parse_jam : Parser := ⟨"parse_jam", "jam", Jam.jam_line⟩

/-- `parse_java`, src/parsers/java.rl:103-116. -/
def parse_java : Parser := ⟨"parse_java", "java", Java.java_line⟩

/-- `parse_javascript`, src/parsers/javascript.rl:122-135. -/
def parse_javascript : Parser := ⟨"parse_javascript", "javascript", Javascript.js_line⟩

/-- `parse_qml`, src/parsers/javascript.rl:141-149. -/
def parse_qml : Parser := ⟨"parse_qml", "qml", Javascript.js_line⟩

/-- `parse_typescript`, src/parsers/javascript.rl:151-159. -/
def parse_typescript : Parser := ⟨"parse_typescript", "typescript", Javascript.js_line⟩

/-- `parse_julia`, src/parsers/julia.rl:123-136. -/
def parse_julia : Parser := ⟨"parse_julia", "julia", Julia.julia_line⟩

/-- `parse_kotlin`, src/parsers/kotlin.rl:156-171. -/
def parse_kotlin : Parser := ⟨"parse_kotlin", "kotlin", Kotlin.kotlin_line⟩

/-- `parse_limbo`, src/parsers/limbo.rl:129-142. -/
def parse_limbo : Parser := ⟨"parse_limbo", "limbo", Limbo.limbo_line⟩

/-- `parse_lisp`, src/parsers/lisp.rl:113-126. -/
def parse_lisp : Parser := ⟨"parse_lisp", "lisp", Lisp.lisp_line⟩

/-- `parse_emacslisp`, src/parsers/lisp.rl:130-138. -/
def parse_emacslisp : Parser := ⟨"parse_emacslisp", "emacslisp", Lisp.lisp_line⟩

/-- `parse_scheme`, src/parsers/lisp.rl:141-149. -/
def parse_scheme : Parser := ⟨"parse_scheme", "scheme", Lisp.lisp_line⟩

/-- `parse_clojure`, src/parsers/lisp.rl:152-160. -/
def parse_clojure : Parser := ⟨"parse_clojure", "clojure", Lisp.lisp_line⟩

/-- `parse_racket`, src/parsers/lisp.rl:163-171. -/
def parse_racket : Parser := ⟨"parse_racket", "racket", Lisp.lisp_line⟩

/-- `parse_livecode`, src/parsers/livecode.rl:100-113. -/
def parse_livecode : Parser := ⟨"parse_livecode", "livecode", Livecode.livecode_line⟩

/-- `parse_logtalk`, src/parsers/logtalk.rl:102-115. -/
def parse_logtalk : Parser := ⟨"parse_logtalk", "logtalk", Logtalk.logtalk_line⟩

/-- `parse_lua`, src/parsers/lua.rl:153-168. -/
def parse_lua : Parser := ⟨"parse_lua", "lua", Lua.lua_line⟩

/-- `parse_makefile`, src/parsers/makefile.rl:90-103. -/
def parse_makefile : Parser := ⟨"parse_makefile", "make", Makefile.make_line⟩

/-- `parse_mathematica`, src/parsers/mathematica.rl:112-127. -/
def parse_mathematica : Parser := ⟨"parse_mathematica", "mathematica", Mathematica.mathematica_line⟩

/-- `parse_matlab`, src/parsers/matlab.rl:106-119. -/
def parse_matlab : Parser := ⟨"parse_matlab", "matlab", Matlab.matlab_line⟩

/-- `parse_metafont`, src/parsers/metafont.rl:89-102. -/
def parse_metafont : Parser := ⟨"parse_metafont", "metafont", Metafont.metafont_line⟩

/-- `parse_metapost`, src/parsers/metapost.rl:89-102. -/
def parse_metapost : Parser := ⟨"parse_metapost", "metapost", Metapost.metapost_line⟩

/-- `parse_modelica`, src/parsers/modelica.rl:117-129. -/
def parse_modelica : Parser := ⟨"parse_modelica", "modelica", Modelica.modelica_line⟩

/-- `parse_modula2`, src/parsers/modula2.rl:128-143. -/
def parse_modula2 : Parser := ⟨"parse_modula2", "modula2", Modula2.modula2_line⟩

/-- `parse_modula3`, src/parsers/modula3.rl:146-161. -/
def parse_modula3 : Parser := ⟨"parse_modula3", "modula3", Modula3.modula3_line⟩

/-- `parse_nsis`, src/parsers/nsis.rl:102-115. -/
def parse_nsis : Parser := ⟨"parse_nsis", "nsis", Nsis.nsis_line⟩

/-- `parse_oberon`, src/parsers/oberon.rl:128-143. -/
def parse_oberon : Parser := ⟨"parse_oberon", "oberon", Oberon.oberon_line⟩

/-- `parse_objective_c`, src/parsers/objective_c.rl:108-121. -/
def parse_objective_c : Parser := ⟨"parse_objective_c", "objective_c", ObjectiveC.objc_line⟩

/-- `parse_objective_j`, src/parsers/objective_j.rl:109-122. -/
def parse_objective_j : Parser := ⟨"parse_objective_j", "objective_j", ObjectiveJ.objj_line⟩

/-- `parse_ocaml`, src/parsers/ocaml.rl:109-124. -/
def parse_ocaml : Parser := ⟨"parse_ocaml", "ocaml", Ocaml.ocaml_line⟩

/-- `parse_octave`, src/parsers/octave.rl:106-119. -/
def parse_octave : Parser := ⟨"parse_octave", "octave", Octave.octave_line⟩

/-- `parse_pascal`, src/parsers/pascal.rl:120-133. -/
def parse_pascal : Parser := ⟨"parse_pascal", "pascal", Pascal.pascal_line⟩

/-- `parse_php`, src/parsers/php.rl:124-137. -/
def parse_php : Parser := ⟨"parse_php", "php", Php.php_line⟩

/-- `parse_pike`, src/parsers/pike.rl:101-114. -/
def parse_pike : Parser := ⟨"parse_pike", "pike", Pike.pike_line⟩

/-- `parse_postscript`, src/parsers/postscript.rl:87-100. -/
def parse_postscript : Parser := ⟨"parse_postscript", "postscript", Postscript.postscript_line⟩

/-- `parse_powershell`, src/parsers/powershell.rl:122-135. -/
def parse_powershell : Parser := ⟨"parse_powershell", "powershell", Powershell.powershell_line⟩

/-- `parse_prolog`, src/parsers/prolog.rl:102-115. -/
def parse_prolog : Parser := ⟨"parse_prolog", "prolog", Prolog.prolog_line⟩

/-- `parse_puppet`, src/parsers/puppet.rl:111-124. -/
def parse_puppet : Parser := ⟨"parse_puppet", "puppet", Puppet.puppet_line⟩

/-- `parse_python`, src/parsers/python.rl:127-140. -/
def parse_python : Parser := ⟨"parse_python", "python", Python.python_line⟩

/-- `parse_r`, src/parsers/r.rl:92-105. -/
def parse_r : Parser := ⟨"parse_r", "r", R.r_line⟩

/-- `parse_rebol`, src/parsers/rebol.rl:107-122. -/
def parse_rebol : Parser := ⟨"parse_rebol", "rebol", Rebol.rebol_line⟩

/-- `parse_rexx`, src/parsers/rexx.rl:111-126. -/
def parse_rexx : Parser := ⟨"parse_rexx", "rexx", Rexx.rexx_line⟩

/-- `parse_ruby`, src/parsers/ruby.rl:170-183. -/
def parse_ruby : Parser := ⟨"parse_ruby", "ruby", Ruby.ruby_line⟩

/-- `parse_rust`, src/parsers/rust.rl:155-168. -/
def parse_rust : Parser := ⟨"parse_rust", "rust", Rust.rust_line⟩

/-- `parse_scala`, src/parsers/scala.rl:101-114. -/
def parse_scala : Parser := ⟨"parse_scala", "scala", Scala.scala_line⟩

/-- `parse_scilab`, src/parsers/scilab.rl:93-106. -/
def parse_scilab : Parser := ⟨"parse_scilab", "scilab", Scilab.scilab_line⟩

/-- `parse_shell`, src/parsers/shell.rl:113-126. -/
def parse_shell : Parser := ⟨"parse_shell", "shell", Shell.shell_line⟩

/-- `parse_smalltalk`, src/parsers/smalltalk.rl:96-109. -/
def parse_smalltalk : Parser := ⟨"parse_smalltalk", "smalltalk", Smalltalk.smalltalk_line⟩

/-- `parse_sql`, src/parsers/sql.rl:111-124. -/
def parse_sql : Parser := ⟨"parse_sql", "sql", Sql.sql_line⟩

/-- `parse_stratego`, src/parsers/stratego.rl:127-140. -/
def parse_stratego : Parser := ⟨"parse_stratego", "stratego", Stratego.stratego_line⟩

/-- `parse_structured_basic`, src/parsers/structured_basic.rl:86-100. -/
def parse_structured_basic : Parser := ⟨"parse_structured_basic", "structured_basic", StructuredBasic.sb_line⟩

/-- `parse_swift`, src/parsers/swift.rl:98-111. -/
def parse_swift : Parser := ⟨"parse_swift", "swift", Swift.swift_line⟩

/-- `parse_tcl`, src/parsers/tcl.rl:104-117. -/
def parse_tcl : Parser := ⟨"parse_tcl", "tcl", Tcl.tcl_line⟩

/-- `parse_tex`, src/parsers/tex.rl:85-98. -/
def parse_tex : Parser := ⟨"parse_tex", "tex", Tex.tex_line⟩

/-- `parse_tex_dtx`, src/parsers/tex_dtx.rl:86-99. -/
def parse_tex_dtx : Parser := ⟨"parse_tex_dtx", "tex_dtx", TexDtx.tex_dtx_line⟩

/-- `parse_umple`, src/parsers/umple.rl:103-116. -/
def parse_umple : Parser := ⟨"parse_umple", "umple", Umple.umple_line⟩

/-- `parse_unrealscript`, src/parsers/unrealscript.rl:119-132. -/
def parse_unrealscript : Parser := ⟨"parse_unrealscript", "unrealscript", Unrealscript.unrealscript_line⟩

/-- `parse_vhdl`, src/parsers/vhdl.rl:90-103. -/
def parse_vhdl : Parser := ⟨"parse_vhdl", "vhdl", Vhdl.vhdl_line⟩

/-- `parse_vim`, src/parsers/vim.rl:85-98. -/
def parse_vim : Parser := ⟨"parse_vim", "vim", Vim.vim_line⟩

/-- `parse_visual_basic`, src/parsers/visual_basic.rl:88-101. -/
def parse_visual_basic : Parser := ⟨"parse_visual_basic", "visualbasic", VisualBasic.vb_line⟩

/-- `parse_xaml`, src/parsers/xaml.rl:108-121. -/
def parse_xaml : Parser := ⟨"parse_xaml", "xaml", Xaml.xaml_line⟩

/-- `parse_xml`, src/parsers/xml.rl:110-123. -/
def parse_xml : Parser := ⟨"parse_xml", "xml", Xml.xml_line⟩

/-- `parse_xmlschema`, src/parsers/xmlschema.rl:112-125. -/
def parse_xmlschema : Parser := ⟨"parse_xmlschema", "xmlschema", Xmlschema.xmlschema_line⟩

/-- `parse_xslt`, src/parsers/xslt.rl:110-123. -/
def parse_xslt : Parser := ⟨"parse_xslt", "xslt", Xslt.xslt_line⟩

/-- All modelled line parsers. -/
def parsers : List Parser := [
  parse_actionscript,
  parse_ada,
  parse_ampl,
  parse_assembler,
  parse_augeas,
  parse_autoconf,
  parse_automake,
  parse_awk,
  parse_bat,
  parse_bfpp,
  parse_blitzmax,
  parse_boo,
  parse_brainfuck,
  parse_c,
  parse_cpp,
  parse_csharp,
  parse_vala,
  parse_genie,
  parse_cuda,
  parse_ec,
  parse_chaiscript,
  parse_classic_basic,
  parse_clearsilver,
  parse_cmake,
  parse_coq,
  parse_crystal,
  parse_css,
  parse_d,
  parse_dart,
  parse_dcl,
  parse_dylan,
  parse_ebuild,
  parse_eiffel,
  parse_elm,
  parse_erlang,
  parse_exheres,
  parse_factor,
  parse_forth,
  parse_fortranfixed,
  parse_fortranfree,
  parse_fsharp,
  parse_glsl,
  parse_golang,
  parse_grace,
  parse_groovy,
  parse_haskell,
  parse_haxe,
  parse_idl_pvwave,
  parse_jam,
  parse_java,
  parse_javascript,
  parse_qml,
  parse_typescript,
  parse_julia,
  parse_kotlin,
  parse_limbo,
  parse_lisp,
  parse_emacslisp,
  parse_scheme,
  parse_clojure,
  parse_racket,
  parse_livecode,
  parse_logtalk,
  parse_lua,
  parse_makefile,
  parse_mathematica,
  parse_matlab,
  parse_metafont,
  parse_metapost,
  parse_modelica,
  parse_modula2,
  parse_modula3,
  parse_nsis,
  parse_oberon,
  parse_objective_c,
  parse_objective_j,
  parse_ocaml,
  parse_octave,
  parse_pascal,
  parse_php,
  parse_pike,
  parse_postscript,
  parse_powershell,
  parse_prolog,
  parse_puppet,
  parse_python,
  parse_r,
  parse_rebol,
  parse_rexx,
  parse_ruby,
  parse_rust,
  parse_scala,
  parse_scilab,
  parse_shell,
  parse_smalltalk,
  parse_sql,
  parse_stratego,
  parse_structured_basic,
  parse_swift,
  parse_tcl,
  parse_tex,
  parse_tex_dtx,
  parse_umple,
  parse_unrealscript,
  parse_vhdl,
  parse_vim,
  parse_visual_basic,
  parse_xaml,
  parse_xml,
  parse_xmlschema,
  parse_xslt]

/-- All modelled entity scanners. -/
def entityScanners : List Scanner := [
  Actionscript.as_entity,
  Ada.ada_entity,
  Ampl.ampl_entity,
  Assembler.asm_entity,
  Augeas.augeas_entity,
  Autoconf.ac_entity,
  Automake.am_entity,
  Awk.awk_entity,
  Bat.bat_entity,
  Blitzmax.blitzmax_entity,
  Boo.boo_entity,
  C.c_entity,
  Chaiscript.chai_entity,
  ClassicBasic.cb_entity,
  Clearsilver.cs_entity,
  Cmake.cmake_entity,
  Coq.coq_entity,
  Crystal.crystal_entity,
  Css.css_entity,
  D.d_entity,
  Dart.dart_entity,
  Dcl.dcl_entity,
  Dylan.dylan_entity,
  Ebuild.ebuild_entity,
  Eiffel.eiffel_entity,
  Elm.elm_entity,
  Erlang.erlang_entity,
  Exheres.exheres_entity,
  Forth.forth_entity,
  Fortranfixed.ffixed_entity,
  Fortranfree.ffree_entity,
  Fsharp.fsharp_entity,
  Glsl.glsl_entity,
  Golang.golang_entity,
  Grace.grace_entity,
  Groovy.groovy_entity,
  Haskell.haskell_entity,
  Haxe.hx_entity,
  IdlPvwave.idl_pvwave_entity,
  Jam.jam_entity,
  Java.java_entity,
  Javascript.js_entity,
  Julia.julia_entity,
  Kotlin.kotlin_entity,
  Lisp.lisp_entity,
  Livecode.livecode_entity,
  Logtalk.logtalk_entity,
  Lua.lua_entity,
  Makefile.make_entity,
  Mathematica.mathematica_entity,
  Matlab.matlab_entity,
  Metafont.metafont_entity,
  Metapost.metapost_entity,
  Modelica.modelica_entity,
  Modula2.modula2_entity,
  Modula3.modula3_entity,
  Nsis.nsis_entity,
  Oberon.oberon_entity,
  ObjectiveC.objc_entity,
  ObjectiveJ.objj_entity,
  Ocaml.ocaml_entity,
  Octave.octave_entity,
  Pascal.pascal_entity,
  Php.php_entity,
  Pike.pike_entity,
  Postscript.postscript_entity,
  Powershell.powershell_entity,
  Prolog.prolog_entity,
  Puppet.puppet_entity,
  Python.python_entity,
  R.r_entity,
  Rebol.rebol_entity,
  Rexx.rexx_entity,
  Ruby.ruby_entity,
  Rust.rust_entity,
  Scala.scala_entity,
  Scilab.scilab_entity,
  Shell.shell_entity,
  Smalltalk.smalltalk_entity,
  Sql.sql_entity,
  Stratego.stratego_entity,
  StructuredBasic.sb_entity,
  Swift.swift_entity,
  Tcl.tcl_entity,
  Tex.tex_entity,
  TexDtx.tex_dtx_entity,
  Umple.umple_entity,
  Unrealscript.unrealscript_entity,
  Vhdl.vhdl_entity,
  VisualBasic.vb_entity,
  Xaml.xaml_entity,
  Xml.xml_entity,
  Xmlschema.xmlschema_entity,
  Xslt.xslt_entity]

end Ohcount.Gram
