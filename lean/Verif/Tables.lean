/-
The tables of `src/hash/*.gperf`, generated by `tools/gen_tables.py`.  The C code
looks them up with functions generated by gperf, which are exact lookups.  Keys are
bytes, values are the identifiers of `src/languages.h`.
-/
namespace Ohcount.Tables

/-- A value of the extension table: an identifier, `BINARY` ("\\1") or
`DISAMBIGUATE(id)` ("\\2" id), src/hash/extensions.gperf:4-5. -/
inductive ExtVal where
  | lang (name : String)
  | binary
  | ambiguous (id : String)
  deriving DecidableEq, Repr

/-- src/hash/extensions.gperf:9-255. Extension to language. -/
def extensions : List (List UInt8 × ExtVal) := [
  ([52, 116, 104], .lang "forth"),  -- 4th
  ([67], .lang "cpp"),  -- C
  ([72], .lang "cpp"),  -- H
  ([97, 100, 97], .lang "ada"),  -- ada
  ([97, 100, 98], .lang "ada"),  -- adb
  ([97, 100, 115], .lang "ada"),  -- ads
  ([97, 105, 102, 102], .binary),  -- aiff
  ([97, 115], .lang "actionscript"),  -- as
  ([97, 115, 56], .lang "assembler"),  -- as8
  ([97, 115, 99, 120], .ambiguous "aspx"),  -- ascx
  ([97, 115, 109], .lang "assembler"),  -- asm
  ([97, 115, 112, 120], .ambiguous "aspx"),  -- aspx
  ([97, 115, 120], .ambiguous "asx"),  -- asx
  ([97, 117], .binary),  -- au
  ([97, 117, 103], .lang "augeas"),  -- aug
  ([97, 118, 105], .binary),  -- avi
  ([97, 119, 107], .lang "awk"),  -- awk
  ([98], .ambiguous "b"),  -- b
  ([98, 97, 115], .ambiguous "basic"),  -- bas
  ([98, 97, 116], .lang "bat"),  -- bat
  ([98, 102], .lang "brainfuck"),  -- bf
  ([98, 102, 112, 112], .lang "bfpp"),  -- bfpp
  ([98, 105], .ambiguous "basic"),  -- bi
  ([98, 109, 112], .binary),  -- bmp
  ([98, 109, 120], .lang "blitzmax"),  -- bmx
  ([98, 111, 111], .lang "boo"),  -- boo
  ([99], .lang "c"),  -- c
  ([99, 43, 43], .lang "cpp"),  -- c++
  ([99, 97, 99, 104, 101], .binary),  -- cache
  ([99, 99], .lang "cpp"),  -- cc
  ([99, 104, 97, 105], .lang "chaiscript"),  -- chai
  ([99, 108, 106], .lang "clojure"),  -- clj
  ([99, 108, 115], .lang "tex"),  -- cls
  ([99, 109, 97, 107, 101], .lang "cmake"),  -- cmake
  ([99, 111, 102, 102, 101, 101], .lang "coffeescript"),  -- coffee
  ([99, 111, 109], .lang "dcl"),  -- com
  ([99, 112, 112], .lang "cpp"),  -- cpp
  ([99, 114], .lang "crystal"),  -- cr
  ([99, 115], .ambiguous "cs"),  -- cs
  ([99, 115, 112, 114, 111, 106], .lang "xml"),  -- csproj
  ([99, 115, 115], .lang "css"),  -- css
  ([99, 116, 112], .lang "php"),  -- ctp
  ([99, 117], .lang "cuda"),  -- cu
  ([99, 120, 120], .lang "cpp"),  -- cxx
  ([100], .lang "dmd"),  -- d
  ([100, 97, 114, 116], .lang "dart"),  -- dart
  ([100, 97, 116], .ambiguous "dat"),  -- dat
  ([100, 101, 102], .ambiguous "def"),  -- def
  ([100, 105], .lang "dmd"),  -- di
  ([100, 111, 99], .binary),  -- doc
  ([100, 116, 120], .lang "tex_dtx"),  -- dtx
  ([100, 121, 108, 97, 110], .lang "dylan"),  -- dylan
  ([101], .lang "eiffel"),  -- e
  ([101, 98, 117, 105, 108, 100], .lang "ebuild"),  -- ebuild
  ([101, 99], .lang "ec"),  -- ec
  ([101, 99, 108, 97, 115, 115], .lang "ebuild"),  -- eclass
  ([101, 104], .lang "ec"),  -- eh
  ([101, 108], .lang "emacslisp"),  -- el
  ([101, 108, 109], .lang "elm"),  -- elm
  ([101, 114, 108], .lang "erlang"),  -- erl
  ([101, 120, 104, 101, 114, 101, 115, 45, 48], .lang "exheres"),  -- exheres-0
  ([101, 120, 108, 105, 98], .lang "exheres"),  -- exlib
  ([102], .ambiguous "fortran"),  -- f
  ([102, 48, 51], .ambiguous "fortran"),  -- f03
  ([102, 48, 56], .ambiguous "fortran"),  -- f08
  ([102, 55, 55], .ambiguous "fortran"),  -- f77
  ([102, 57, 48], .ambiguous "fortran"),  -- f90
  ([102, 57, 53], .ambiguous "fortran"),  -- f95
  ([102, 97, 99, 116, 111, 114], .lang "factor"),  -- factor
  ([102, 114], .lang "forth"),  -- fr
  ([102, 114, 97, 103], .lang "glsl"),  -- frag
  ([102, 114, 116], .lang "forth"),  -- frt
  ([102, 111, 114], .ambiguous "fortran"),  -- for
  ([102, 111, 114, 116, 104], .lang "forth"),  -- forth
  ([102, 112, 112], .ambiguous "fortran"),  -- fpp
  ([102, 114, 109], .lang "visualbasic"),  -- frm
  ([102, 114, 120], .lang "visualbasic"),  -- frx
  ([102, 115], .ambiguous "fs"),  -- fs
  ([102, 116, 104], .lang "forth"),  -- fth
  ([102, 116, 110], .ambiguous "fortran"),  -- ftn
  ([103, 101, 109, 115, 112, 101, 99], .lang "ruby"),  -- gemspec
  ([103, 105, 102], .binary),  -- gif
  ([103, 108, 115, 108], .lang "glsl"),  -- glsl
  ([103, 111], .lang "golang"),  -- go
  ([103, 114, 111, 111, 118, 121], .lang "groovy"),  -- groovy
  ([103, 114, 97, 99, 101], .lang "grace"),  -- grace
  ([103, 114, 99], .lang "grace"),  -- grc
  ([103, 115], .lang "genie"),  -- gs
  ([103, 122], .binary),  -- gz
  ([104], .ambiguous "h"),  -- h
  ([104, 43, 43], .lang "cpp"),  -- h++
  ([104, 97, 109, 108], .lang "haml"),  -- haml
  ([104, 104], .lang "cpp"),  -- hh
  ([104, 112, 112], .lang "cpp"),  -- hpp
  ([104, 114, 108], .lang "erlang"),  -- hrl
  ([104, 115], .lang "haskell"),  -- hs
  ([104, 116, 109], .lang "html"),  -- htm
  ([104, 116, 109, 108], .lang "html"),  -- html
  ([104, 120], .lang "haxe"),  -- hx
  ([104, 120, 120], .lang "cpp"),  -- hxx
  ([105, 51], .lang "modula3"),  -- i3
  ([105, 99, 110, 115], .binary),  -- icns
  ([105, 110], .ambiguous "in"),  -- in
  ([105, 110, 99], .ambiguous "inc"),  -- inc
  ([106], .lang "objective_j"),  -- j
  ([106, 97, 114], .binary),  -- jar
  ([106, 97, 118, 97], .lang "java"),  -- java
  ([106, 112, 101, 103], .binary),  -- jpeg
  ([106, 112, 103], .binary),  -- jpg
  ([106, 115], .lang "javascript"),  -- js
  ([106, 108], .lang "julia"),  -- jl
  ([106, 115, 112], .lang "jsp"),  -- jsp
  ([107, 100, 101, 98, 117, 105, 108, 100, 45, 49], .lang "ebuild"),  -- kdebuild-1
  ([107, 116], .lang "kotlin"),  -- kt
  ([108, 99], .lang "livecode"),  -- lc
  ([108, 97, 116, 101, 120], .lang "tex"),  -- latex
  ([108, 105, 115, 112], .lang "lisp"),  -- lisp
  ([108, 115, 112], .lang "lisp"),  -- lsp
  ([108, 116, 120], .lang "tex"),  -- ltx
  ([108, 103, 116], .lang "logtalk"),  -- lgt
  ([108, 117, 97], .lang "lua"),  -- lua
  ([109], .ambiguous "m"),  -- m
  ([109, 51], .lang "modula3"),  -- m3
  ([109, 52], .lang "autoconf"),  -- m4
  ([109, 52, 97], .binary),  -- m4a
  ([109, 102], .lang "metafont"),  -- mf
  ([109, 107], .lang "make"),  -- mk
  ([109, 108], .lang "ocaml"),  -- ml
  ([109, 108, 52], .lang "ocaml"),  -- ml4
  ([109, 108, 105], .lang "ocaml"),  -- mli
  ([109, 109], .lang "objective_c"),  -- mm
  ([109, 111], .lang "modelica"),  -- mo
  ([109, 111, 100], .ambiguous "mod"),  -- mod
  ([109, 111, 118], .binary),  -- mov
  ([109, 112], .lang "metapost_with_tex"),  -- mp
  ([109, 112, 51], .binary),  -- mp3
  ([109, 112, 103], .binary),  -- mpg
  ([109, 116], .lang "mathematica"),  -- mt
  ([109, 117, 115, 116, 97, 99, 104, 101], .lang "html"),  -- mustache
  ([109, 120, 109, 108], .lang "mxml"),  -- mxml
  ([110, 105, 120], .lang "nix"),  -- nix
  ([110, 115, 101], .lang "lua"),  -- nse
  ([110, 115, 105], .lang "nsis"),  -- nsi
  ([110, 115, 104], .lang "nsis"),  -- nsh
  ([111, 98, 50], .lang "oberon"),  -- ob2
  ([111, 98, 110], .lang "oberon"),  -- obn
  ([111, 103, 103], .binary),  -- ogg
  ([112, 54], .lang "perl"),  -- p6
  ([112, 56], .lang "lua"),  -- p8
  ([112, 97, 115], .lang "pascal"),  -- pas
  ([112, 101, 114, 108], .lang "perl"),  -- perl
  ([112, 100, 102], .binary),  -- pdf
  ([112, 104], .lang "perl"),  -- ph
  ([112, 104, 112], .lang "php"),  -- php
  ([112, 104, 112, 51], .lang "php"),  -- php3
  ([112, 104, 112, 52], .lang "php"),  -- php4
  ([112, 104, 112, 53], .lang "php"),  -- php5
  ([112, 105, 107, 101], .lang "pike"),  -- pike
  ([112, 108], .ambiguous "pl"),  -- pl
  ([112, 109], .lang "perl"),  -- pm
  ([112, 109, 99], .lang "c"),  -- pmc
  ([112, 109, 111, 100], .lang "pike"),  -- pmod
  ([112, 110, 103], .binary),  -- png
  ([112, 110, 116], .binary),  -- pnt
  ([112, 111, 100], .lang "perl"),  -- pod
  ([112, 112], .ambiguous "pp"),  -- pp
  ([112, 112, 116], .binary),  -- ppt
  ([112, 114, 111], .ambiguous "pro"),  -- pro
  ([112, 115], .lang "postscript"),  -- ps
  ([112, 115, 49], .lang "powershell"),  -- ps1
  ([112, 121], .lang "python"),  -- py
  ([113, 109, 108], .lang "qml"),  -- qml
  ([113, 116], .binary),  -- qt
  ([114], .ambiguous "r"),  -- r
  ([114, 51], .lang "rebol"),  -- r3
  ([114, 97], .binary),  -- ra
  ([114, 98], .lang "ruby"),  -- rb
  ([114, 98, 119], .lang "ruby"),  -- rbw
  ([114, 101, 98], .lang "rebol"),  -- reb
  ([114, 101, 98, 111, 108], .lang "rebol"),  -- rebol
  ([114, 101, 120], .lang "rexx"),  -- rex
  ([114, 101, 120, 120], .lang "rexx"),  -- rexx
  ([114, 104, 116, 109, 108], .lang "rhtml"),  -- rhtml
  ([114, 107, 116], .lang "racket"),  -- rkt
  ([114, 107, 116, 100], .lang "racket"),  -- rktd
  ([114, 107, 116, 108], .lang "racket"),  -- rktl
  ([114, 115], .ambiguous "rs"),  -- rs
  ([114, 117], .lang "ruby"),  -- ru
  ([114, 117, 110], .lang "ampl"),  -- run
  ([115], .lang "assembler"),  -- s
  ([115, 99], .lang "scheme"),  -- sc
  ([115, 99, 97, 108, 97], .lang "scala"),  -- scala
  ([115, 99, 101], .lang "scilab"),  -- sce
  ([115, 99, 105], .lang "scilab"),  -- sci
  ([115, 99, 109], .lang "scheme"),  -- scm
  ([115, 104], .lang "shell"),  -- sh
  ([115, 108, 100], .lang "scheme"),  -- sld
  ([115, 108, 115], .lang "scheme"),  -- sls
  ([115, 112, 115], .lang "scheme"),  -- sps
  ([115, 113, 108], .lang "sql"),  -- sql
  ([115, 115], .lang "scheme"),  -- ss
  ([115, 116], .ambiguous "st"),  -- st
  ([115, 116, 114], .lang "stratego"),  -- str
  ([115, 116, 121], .lang "tex"),  -- sty
  ([115, 118, 103], .binary),  -- svg
  ([115, 118, 103, 122], .binary),  -- svgz
  ([115, 118, 110], .binary),  -- svn
  ([115, 119, 102], .binary),  -- swf
  ([115, 119, 105, 102, 116], .lang "swift"),  -- swift
  ([116], .lang "perl"),  -- t
  ([116, 97, 99], .lang "python"),  -- tac
  ([116, 97, 112], .lang "python"),  -- tap
  ([116, 97, 114], .binary),  -- tar
  ([116, 99, 108], .lang "tcl"),  -- tcl
  ([116, 101, 120], .lang "tex"),  -- tex
  ([116, 103, 122], .binary),  -- tgz
  ([116, 105, 102], .binary),  -- tif
  ([116, 105, 102, 102], .binary),  -- tiff
  ([116, 112, 108], .lang "html"),  -- tpl
  ([117, 99], .lang "unrealscript"),  -- uc
  ([117, 109, 112, 108, 101], .lang "umple"),  -- umple
  ([116, 115], .lang "typescript"),  -- ts
  ([116, 115, 120], .lang "typescript"),  -- tsx
  ([118, 97, 108, 97], .lang "vala"),  -- vala
  ([118, 97, 112, 105], .lang "vala"),  -- vapi
  ([118], .lang "coq"),  -- v
  ([118, 98], .lang "visualbasic"),  -- vb
  ([118, 98, 97], .lang "visualbasic"),  -- vba
  ([118, 98, 115], .lang "visualbasic"),  -- vbs
  ([118, 101, 114, 116], .lang "glsl"),  -- vert
  ([118, 104, 100], .lang "vhdl"),  -- vhd
  ([118, 104, 100, 108], .lang "vhdl"),  -- vhdl
  ([118, 105, 109], .lang "vim"),  -- vim
  ([119, 97, 118], .binary),  -- wav
  ([119, 108], .lang "mathematica"),  -- wl
  ([119, 108, 116], .lang "mathematica"),  -- wlt
  ([120, 97, 109, 108], .lang "xaml"),  -- xaml
  ([120, 104, 116, 109, 108], .lang "html"),  -- xhtml
  ([120, 108, 115], .binary),  -- xls
  ([120, 108, 119], .binary),  -- xlw
  ([120, 109, 108], .lang "xml"),  -- xml
  ([120, 115], .lang "c"),  -- xs
  ([120, 115, 100], .lang "xmlschema"),  -- xsd
  ([120, 115, 108], .lang "xslt"),  -- xsl
  ([122, 56, 48], .lang "assembler"),  -- z80
  ([122, 105, 112], .binary),  -- zip
  ([122, 112, 116], .lang "html")  -- zpt
]

/-- src/hash/filenames.gperf:6-22. File name to language. -/
def filenames : List (List UInt8 × String) := [
  ([67, 77, 97, 107, 101, 76, 105, 115, 116, 115, 46, 116, 120, 116], "cmake"),  -- CMakeLists.txt
  ([74, 97, 109, 102, 105, 108, 101], "jam"),  -- Jamfile
  ([74, 97, 109, 114, 117, 108, 101, 115], "jam"),  -- Jamrules
  ([71, 78, 85, 109, 97, 107, 101, 102, 105, 108, 101], "make"),  -- GNUmakefile
  ([77, 97, 107, 101, 102, 105, 108, 101], "make"),  -- Makefile
  ([77, 97, 107, 101, 102, 105, 108, 101, 46, 97, 109], "automake"),  -- Makefile.am
  ([99, 111, 110, 102, 105, 103, 117, 114, 101], "autoconf"),  -- configure
  ([99, 111, 110, 102, 105, 103, 117, 114, 101, 46, 97, 99], "autoconf"),  -- configure.ac
  ([99, 111, 110, 102, 105, 103, 117, 114, 101, 46, 105, 110], "autoconf"),  -- configure.in
  ([105, 110, 105, 116, 46, 112, 112], "puppet"),  -- init.pp
  ([109, 97, 107, 101, 102, 105, 108, 101], "make"),  -- makefile
  ([82, 97, 107, 101, 102, 105, 108, 101], "ruby"),  -- Rakefile
  ([114, 97, 107, 101, 102, 105, 108, 101], "ruby"),  -- rakefile
  ([71, 101, 109, 102, 105, 108, 101], "ruby"),  -- Gemfile
  ([86, 97, 103, 114, 97, 110, 116, 102, 105, 108, 101], "ruby"),  -- Vagrantfile
  ([80, 75, 71, 66, 85, 73, 76, 68], "shell"),  -- PKGBUILD
  ([115, 99, 114, 105, 112, 116, 46, 117, 116, 102, 56], "livecode")  -- script.utf8
]

/-- src/hash/languages.gperf:6-129. Language name to identifier (nice name and category are left out). -/
def languages : List (List UInt8 × String) := [
  ([97, 99, 116, 105, 111, 110, 115, 99, 114, 105, 112, 116], "actionscript"),  -- actionscript
  ([97, 100, 97], "ada"),  -- ada
  ([97, 109, 112, 108], "ampl"),  -- ampl
  ([97, 115, 115, 101, 109, 98, 108, 101, 114], "assembler"),  -- assembler
  ([97, 117, 103, 101, 97, 115], "augeas"),  -- augeas
  ([97, 117, 116, 111, 99, 111, 110, 102], "autoconf"),  -- autoconf
  ([97, 117, 116, 111, 109, 97, 107, 101], "automake"),  -- automake
  ([97, 119, 107], "awk"),  -- awk
  ([98, 97, 116], "bat"),  -- bat
  ([98, 97, 115, 104], "shell"),  -- bash
  ([98, 108, 105, 116, 122, 109, 97, 120], "blitzmax"),  -- blitzmax
  ([98, 111, 111], "boo"),  -- boo
  ([98, 114, 97, 105, 110, 102, 117, 99, 107], "brainfuck"),  -- brainfuck
  ([98, 102, 112, 112], "bfpp"),  -- bfpp
  ([99], "c"),  -- c
  ([99, 104, 97, 105, 115, 99, 114, 105, 112, 116], "chaiscript"),  -- chaiscript
  ([99, 108, 97, 115, 115, 105, 99, 95, 98, 97, 115, 105, 99], "classic_basic"),  -- classic_basic
  ([99, 108, 101, 97, 114, 115, 105, 108, 118, 101, 114], "clearsilver"),  -- clearsilver
  ([99, 108, 101, 97, 114, 115, 105, 108, 118, 101, 114, 95, 116, 101, 109, 112, 108, 97, 116, 101], "clearsilver_template"),  -- clearsilver_template
  ([99, 108, 111, 106, 117, 114, 101], "clojure"),  -- clojure
  ([99, 109, 97, 107, 101], "cmake"),  -- cmake
  ([99, 111, 102, 102, 101, 115, 99, 114, 105, 112, 116], "coffeescript"),  -- coffescript
  ([99, 111, 113], "coq"),  -- coq
  ([99, 112, 112], "cpp"),  -- cpp
  ([99, 114, 121, 115, 116, 97, 108], "crystal"),  -- crystal
  ([99, 115, 95, 97, 115, 112, 120], "cs_aspx"),  -- cs_aspx
  ([99, 115, 104, 97, 114, 112], "csharp"),  -- csharp
  ([99, 115, 115], "css"),  -- css
  ([99, 117, 100, 97], "cuda"),  -- cuda
  ([100, 97, 114, 116], "dart"),  -- dart
  ([100, 99, 108], "dcl"),  -- dcl
  ([100, 109, 100], "dmd"),  -- dmd
  ([100, 116, 120], "tex_dtx"),  -- dtx
  ([100, 121, 108, 97, 110], "dylan"),  -- dylan
  ([101, 98, 117, 105, 108, 100], "ebuild"),  -- ebuild
  ([101, 99], "ec"),  -- ec
  ([101, 105, 102, 102, 101, 108], "eiffel"),  -- eiffel
  ([101, 108, 109], "elm"),  -- elm
  ([101, 109, 97, 99, 115, 108, 105, 115, 112], "emacslisp"),  -- emacslisp
  ([101, 114, 108, 97, 110, 103], "erlang"),  -- erlang
  ([101, 120, 104, 101, 114, 101, 115], "exheres"),  -- exheres
  ([102, 97, 99, 116, 111, 114], "factor"),  -- factor
  ([102, 111, 114, 116, 104], "forth"),  -- forth
  ([102, 111, 114, 116, 114, 97, 110, 102, 105, 120, 101, 100], "fortranfixed"),  -- fortranfixed
  ([102, 111, 114, 116, 114, 97, 110, 102, 114, 101, 101], "fortranfree"),  -- fortranfree
  ([102, 115, 104, 97, 114, 112], "fsharp"),  -- fsharp
  ([103, 101, 110, 105, 101], "genie"),  -- genie
  ([103, 108, 115, 108], "glsl"),  -- glsl
  ([103, 111, 108, 97, 110, 103], "golang"),  -- golang
  ([103, 114, 97, 99, 101], "grace"),  -- grace
  ([103, 114, 111, 111, 118, 121], "groovy"),  -- groovy
  ([104, 97, 109, 108], "haml"),  -- haml
  ([104, 97, 115, 107, 101, 108, 108], "haskell"),  -- haskell
  ([104, 97, 120, 101], "haxe"),  -- haxe
  ([104, 116, 109, 108], "html"),  -- html
  ([105, 100, 108, 95, 112, 118, 119, 97, 118, 101], "idl_pvwave"),  -- idl_pvwave
  ([106, 97, 109], "jam"),  -- jam
  ([106, 97, 118, 97], "java"),  -- java
  ([106, 97, 118, 97, 115, 99, 114, 105, 112, 116], "javascript"),  -- javascript
  ([106, 117, 108, 105, 97], "julia"),  -- julia
  ([106, 115, 112], "jsp"),  -- jsp
  ([107, 111, 116, 108, 105, 110], "kotlin"),  -- kotlin
  ([108, 105, 109, 98, 111], "limbo"),  -- limbo
  ([108, 105, 115, 112], "lisp"),  -- lisp
  ([108, 105, 118, 101, 99, 111, 100, 101], "livecode"),  -- livecode
  ([108, 111, 103, 116, 97, 108, 107], "logtalk"),  -- logtalk
  ([108, 117, 97], "lua"),  -- lua
  ([109, 97, 107, 101], "make"),  -- make
  ([109, 97, 116, 104, 101, 109, 97, 116, 105, 99, 97], "mathematica"),  -- mathematica
  ([109, 97, 116, 108, 97, 98], "matlab"),  -- matlab
  ([109, 101, 116, 97, 102, 111, 110, 116], "metafont"),  -- metafont
  ([109, 101, 116, 97, 112, 111, 115, 116], "metapost"),  -- metapost
  ([109, 101, 116, 97, 112, 111, 115, 116, 95, 119, 105, 116, 104, 95, 116, 101, 120], "metapost_with_tex"),  -- metapost_with_tex
  ([109, 111, 100, 101, 108, 105, 99, 97], "modelica"),  -- modelica
  ([109, 111, 100, 117, 108, 97, 50], "modula2"),  -- modula2
  ([109, 111, 100, 117, 108, 97, 51], "modula3"),  -- modula3
  ([109, 120, 109, 108], "mxml"),  -- mxml
  ([110, 105, 120], "nix"),  -- nix
  ([110, 115, 105, 115], "nsis"),  -- nsis
  ([111, 98, 101, 114, 111, 110], "oberon"),  -- oberon
  ([111, 98, 106, 101, 99, 116, 105, 118, 101, 95, 99], "objective_c"),  -- objective_c
  ([111, 98, 106, 101, 99, 116, 105, 118, 101, 95, 106], "objective_j"),  -- objective_j
  ([111, 99, 97, 109, 108], "ocaml"),  -- ocaml
  ([111, 99, 116, 97, 118, 101], "octave"),  -- octave
  ([112, 97, 115, 99, 97, 108], "pascal"),  -- pascal
  ([112, 101, 114, 108], "perl"),  -- perl
  ([112, 104, 112], "php"),  -- php
  ([112, 105, 107, 101], "pike"),  -- pike
  ([112, 111, 115, 116, 115, 99, 114, 105, 112, 116], "postscript"),  -- postscript
  ([112, 111, 119, 101, 114, 115, 104, 101, 108, 108], "powershell"),  -- powershell
  ([112, 114, 111, 108, 111, 103], "prolog"),  -- prolog
  ([112, 117, 112, 112, 101, 116], "puppet"),  -- puppet
  ([112, 121, 116, 104, 111, 110], "python"),  -- python
  ([113, 109, 108], "qml"),  -- qml
  ([114], "r"),  -- r
  ([114, 97, 99, 107, 101, 116], "racket"),  -- racket
  ([114, 101, 98, 111, 108], "rebol"),  -- rebol
  ([114, 101, 120, 120], "rexx"),  -- rexx
  ([114, 104, 116, 109, 108], "rhtml"),  -- rhtml
  ([114, 117, 98, 121], "ruby"),  -- ruby
  ([114, 117, 115, 116], "rust"),  -- rust
  ([115, 99, 97, 108, 97], "scala"),  -- scala
  ([115, 99, 104, 101, 109, 101], "scheme"),  -- scheme
  ([115, 99, 105, 108, 97, 98], "scilab"),  -- scilab
  ([115, 104, 101, 108, 108], "shell"),  -- shell
  ([115, 109, 97, 108, 108, 116, 97, 108, 107], "smalltalk"),  -- smalltalk
  ([115, 116, 114, 97, 116, 101, 103, 111], "stratego"),  -- stratego
  ([115, 116, 114, 117, 99, 116, 117, 114, 101, 100, 95, 98, 97, 115, 105, 99], "structured_basic"),  -- structured_basic
  ([115, 113, 108], "sql"),  -- sql
  ([115, 119, 105, 102, 116], "swift"),  -- swift
  ([116, 99, 108], "tcl"),  -- tcl
  ([116, 101, 120], "tex"),  -- tex
  ([117, 109, 112, 108, 101], "umple"),  -- umple
  ([117, 110, 114, 101, 97, 108, 115, 99, 114, 105, 112, 116], "unrealscript"),  -- unrealscript
  ([116, 121, 112, 101, 115, 99, 114, 105, 112, 116], "typescript"),  -- typescript
  ([118, 97, 108, 97], "vala"),  -- vala
  ([118, 98, 95, 97, 115, 112, 120], "vb_aspx"),  -- vb_aspx
  ([118, 104, 100, 108], "vhdl"),  -- vhdl
  ([118, 105, 109], "vim"),  -- vim
  ([118, 105, 115, 117, 97, 108, 98, 97, 115, 105, 99], "visualbasic"),  -- visualbasic
  ([120, 97, 109, 108], "xaml"),  -- xaml
  ([120, 109, 108], "xml"),  -- xml
  ([120, 115, 108, 116], "xslt"),  -- xslt
  ([120, 109, 108, 115, 99, 104, 101, 109, 97], "xmlschema")  -- xmlschema
]

/-- src/hash/parsers.gperf:116-239. Identifier to parser (named by its function). -/
def parsers : List (List UInt8 × String) := [
  ([97, 99, 116, 105, 111, 110, 115, 99, 114, 105, 112, 116], "parse_actionscript"),  -- actionscript
  ([97, 100, 97], "parse_ada"),  -- ada
  ([97, 109, 112, 108], "parse_ampl"),  -- ampl
  ([97, 115, 115, 101, 109, 98, 108, 101, 114], "parse_assembler"),  -- assembler
  ([97, 117, 103, 101, 97, 115], "parse_augeas"),  -- augeas
  ([97, 117, 116, 111, 99, 111, 110, 102], "parse_autoconf"),  -- autoconf
  ([97, 117, 116, 111, 109, 97, 107, 101], "parse_automake"),  -- automake
  ([97, 119, 107], "parse_awk"),  -- awk
  ([98, 97, 116], "parse_bat"),  -- bat
  ([98, 108, 105, 116, 122, 109, 97, 120], "parse_blitzmax"),  -- blitzmax
  ([98, 111, 111], "parse_boo"),  -- boo
  ([98, 114, 97, 105, 110, 102, 117, 99, 107], "parse_brainfuck"),  -- brainfuck
  ([98, 102, 112, 112], "parse_bfpp"),  -- bfpp
  ([99], "parse_c"),  -- c
  ([99, 104, 97, 105, 115, 99, 114, 105, 112, 116], "parse_chaiscript"),  -- chaiscript
  ([99, 109, 97, 107, 101], "parse_cmake"),  -- cmake
  ([99, 108, 97, 115, 115, 105, 99, 95, 98, 97, 115, 105, 99], "parse_classic_basic"),  -- classic_basic
  ([99, 108, 101, 97, 114, 115, 105, 108, 118, 101, 114], "parse_clearsilver"),  -- clearsilver
  ([99, 108, 101, 97, 114, 115, 105, 108, 118, 101, 114, 95, 116, 101, 109, 112, 108, 97, 116, 101], "parse_cshtml"),  -- clearsilver_template
  ([99, 108, 111, 106, 117, 114, 101], "parse_clojure"),  -- clojure
  ([99, 111, 102, 102, 101, 101, 115, 99, 114, 105, 112, 116], "parse_coffeescript"),  -- coffeescript
  ([99, 111, 113], "parse_coq"),  -- coq
  ([99, 114, 121, 115, 116, 97, 108], "parse_crystal"),  -- crystal
  ([99, 112, 112], "parse_cpp"),  -- cpp
  ([99, 115, 95, 97, 115, 112, 120], "parse_cs_aspx"),  -- cs_aspx
  ([99, 115, 104, 97, 114, 112], "parse_csharp"),  -- csharp
  ([99, 115, 115], "parse_css"),  -- css
  ([99, 117, 100, 97], "parse_cuda"),  -- cuda
  ([100, 97, 114, 116], "parse_dart"),  -- dart
  ([100, 99, 108], "parse_dcl"),  -- dcl
  ([100, 109, 100], "parse_d"),  -- dmd
  ([100, 121, 108, 97, 110], "parse_dylan"),  -- dylan
  ([101, 98, 117, 105, 108, 100], "parse_ebuild"),  -- ebuild
  ([101, 99], "parse_ec"),  -- ec
  ([101, 105, 102, 102, 101, 108], "parse_eiffel"),  -- eiffel
  ([101, 108, 109], "parse_elm"),  -- elm
  ([101, 114, 108, 97, 110, 103], "parse_erlang"),  -- erlang
  ([101, 120, 104, 101, 114, 101, 115], "parse_exheres"),  -- exheres
  ([101, 109, 97, 99, 115, 108, 105, 115, 112], "parse_emacslisp"),  -- emacslisp
  ([102, 97, 99, 116, 111, 114], "parse_factor"),  -- factor
  ([102, 111, 114, 116, 104], "parse_forth"),  -- forth
  ([102, 111, 114, 116, 114, 97, 110, 102, 105, 120, 101, 100], "parse_fortranfixed"),  -- fortranfixed
  ([102, 111, 114, 116, 114, 97, 110, 102, 114, 101, 101], "parse_fortranfree"),  -- fortranfree
  ([102, 115, 104, 97, 114, 112], "parse_fsharp"),  -- fsharp
  ([103, 101, 110, 105, 101], "parse_genie"),  -- genie
  ([103, 108, 115, 108], "parse_glsl"),  -- glsl
  ([103, 111, 108, 97, 110, 103], "parse_golang"),  -- golang
  ([103, 114, 97, 99, 101], "parse_grace"),  -- grace
  ([103, 114, 111, 111, 118, 121], "parse_groovy"),  -- groovy
  ([104, 97, 115, 107, 101, 108, 108], "parse_haskell"),  -- haskell
  ([104, 97, 109, 108], "parse_haml"),  -- haml
  ([104, 97, 120, 101], "parse_haxe"),  -- haxe
  ([104, 116, 109, 108], "parse_html"),  -- html
  ([105, 100, 108, 95, 112, 118, 119, 97, 118, 101], "parse_idl_pvwave"),  -- idl_pvwave
  ([106, 97, 109], "parse_jam"),  -- jam
  ([106, 97, 118, 97], "parse_java"),  -- java
  ([106, 97, 118, 97, 115, 99, 114, 105, 112, 116], "parse_javascript"),  -- javascript
  ([106, 117, 108, 105, 97], "parse_julia"),  -- julia
  ([106, 115, 112], "parse_jsp"),  -- jsp
  ([107, 111, 116, 108, 105, 110], "parse_kotlin"),  -- kotlin
  ([108, 105, 115, 112], "parse_lisp"),  -- lisp
  ([108, 105, 109, 98, 111], "parse_limbo"),  -- limbo
  ([108, 105, 115, 112], "parse_lisp"),  -- lisp
  ([108, 105, 118, 101, 99, 111, 100, 101], "parse_livecode"),  -- livecode
  ([108, 111, 103, 116, 97, 108, 107], "parse_logtalk"),  -- logtalk
  ([108, 117, 97], "parse_lua"),  -- lua
  ([109, 97, 107, 101], "parse_makefile"),  -- make
  ([109, 97, 116, 104, 101, 109, 97, 116, 105, 99, 97], "parse_mathematica"),  -- mathematica
  ([109, 97, 116, 108, 97, 98], "parse_matlab"),  -- matlab
  ([109, 101, 116, 97, 102, 111, 110, 116], "parse_metafont"),  -- metafont
  ([109, 101, 116, 97, 112, 111, 115, 116], "parse_metapost"),  -- metapost
  ([109, 101, 116, 97, 112, 111, 115, 116, 95, 119, 105, 116, 104, 95, 116, 101, 120], "parse_mptex"),  -- metapost_with_tex
  ([109, 111, 100, 101, 108, 105, 99, 97], "parse_modelica"),  -- modelica
  ([109, 111, 100, 117, 108, 97, 50], "parse_modula2"),  -- modula2
  ([109, 111, 100, 117, 108, 97, 51], "parse_modula3"),  -- modula3
  ([109, 120, 109, 108], "parse_mxml"),  -- mxml
  ([110, 105, 120], "parse_nix"),  -- nix
  ([110, 115, 105, 115], "parse_nsis"),  -- nsis
  ([111, 98, 101, 114, 111, 110], "parse_oberon"),  -- oberon
  ([111, 98, 106, 101, 99, 116, 105, 118, 101, 95, 99], "parse_objective_c"),  -- objective_c
  ([111, 98, 106, 101, 99, 116, 105, 118, 101, 95, 106], "parse_objective_j"),  -- objective_j
  ([111, 99, 97, 109, 108], "parse_ocaml"),  -- ocaml
  ([111, 99, 116, 97, 118, 101], "parse_octave"),  -- octave
  ([112, 97, 115, 99, 97, 108], "parse_pascal"),  -- pascal
  ([112, 101, 114, 108], "parse_perl"),  -- perl
  ([112, 104, 112], "parse_phtml"),  -- php
  ([112, 105, 107, 101], "parse_pike"),  -- pike
  ([112, 111, 115, 116, 115, 99, 114, 105, 112, 116], "parse_postscript"),  -- postscript
  ([112, 111, 119, 101, 114, 115, 104, 101, 108, 108], "parse_powershell"),  -- powershell
  ([112, 114, 111, 108, 111, 103], "parse_prolog"),  -- prolog
  ([112, 117, 112, 112, 101, 116], "parse_puppet"),  -- puppet
  ([112, 121, 116, 104, 111, 110], "parse_python"),  -- python
  ([113, 109, 108], "parse_qml"),  -- qml
  ([114], "parse_r"),  -- r
  ([114, 97, 99, 107, 101, 116], "parse_racket"),  -- racket
  ([114, 101, 98, 111, 108], "parse_rebol"),  -- rebol
  ([114, 101, 120, 120], "parse_rexx"),  -- rexx
  ([114, 104, 116, 109, 108], "parse_rhtml"),  -- rhtml
  ([114, 117, 98, 121], "parse_ruby"),  -- ruby
  ([114, 117, 115, 116], "parse_rust"),  -- rust
  ([115, 99, 97, 108, 97], "parse_scala"),  -- scala
  ([115, 99, 104, 101, 109, 101], "parse_scheme"),  -- scheme
  ([115, 99, 105, 108, 97, 98], "parse_scilab"),  -- scilab
  ([115, 104, 101, 108, 108], "parse_shell"),  -- shell
  ([115, 109, 97, 108, 108, 116, 97, 108, 107], "parse_smalltalk"),  -- smalltalk
  ([115, 116, 114, 97, 116, 101, 103, 111], "parse_stratego"),  -- stratego
  ([115, 116, 114, 117, 99, 116, 117, 114, 101, 100, 95, 98, 97, 115, 105, 99], "parse_structured_basic"),  -- structured_basic
  ([115, 113, 108], "parse_sql"),  -- sql
  ([115, 119, 105, 102, 116], "parse_swift"),  -- swift
  ([116, 99, 108], "parse_tcl"),  -- tcl
  ([116, 101, 120], "parse_tex"),  -- tex
  ([116, 101, 120, 95, 100, 116, 120], "parse_tex_dtx"),  -- tex_dtx
  ([117, 109, 112, 108, 101], "parse_umple"),  -- umple
  ([117, 110, 114, 101, 97, 108, 115, 99, 114, 105, 112, 116], "parse_unrealscript"),  -- unrealscript
  ([116, 121, 112, 101, 115, 99, 114, 105, 112, 116], "parse_typescript"),  -- typescript
  ([118, 97, 108, 97], "parse_vala"),  -- vala
  ([118, 98, 95, 97, 115, 112, 120], "parse_vb_aspx"),  -- vb_aspx
  ([118, 104, 100, 108], "parse_vhdl"),  -- vhdl
  ([118, 105, 109], "parse_vim"),  -- vim
  ([118, 105, 115, 117, 97, 108, 98, 97, 115, 105, 99], "parse_visual_basic"),  -- visualbasic
  ([120, 97, 109, 108], "parse_xaml"),  -- xaml
  ([120, 109, 108], "parse_xml"),  -- xml
  ([120, 115, 108, 116], "parse_xslt"),  -- xslt
  ([120, 109, 108, 115, 99, 104, 101, 109, 97], "parse_xmlschema")  -- xmlschema
]

/-- src/hash/cppheaders.gperf:3-91. The C++ standard headers. -/
def cppHeaders : List (List UInt8) := [
  [97, 108, 103, 111, 114, 105, 116, 104, 109],  -- algorithm
  [97, 114, 114, 97, 121],  -- array
  [98, 105, 116, 115, 101, 116],  -- bitset
  [99, 97, 115, 115, 101, 114, 116],  -- cassert
  [99, 99, 111, 109, 112, 108, 101, 120],  -- ccomplex
  [99, 99, 116, 121, 112, 101],  -- cctype
  [99, 101, 114, 114, 110, 111],  -- cerrno
  [99, 102, 101, 110, 118],  -- cfenv
  [99, 102, 108, 111, 97, 116],  -- cfloat
  [99, 105, 110, 116, 116, 121, 112, 101, 115],  -- cinttypes
  [99, 105, 115, 111, 54, 52, 54],  -- ciso646
  [99, 108, 105, 109, 105, 116, 115],  -- climits
  [99, 108, 111, 99, 97, 108, 101],  -- clocale
  [99, 109, 97, 116, 104],  -- cmath
  [99, 115, 101, 116, 106, 109, 112],  -- csetjmp
  [99, 115, 105, 103, 110, 97, 108],  -- csignal
  [99, 115, 116, 100, 97, 114, 103],  -- cstdarg
  [99, 115, 116, 100, 98, 111, 111, 108],  -- cstdbool
  [99, 115, 116, 100, 100, 101, 102],  -- cstddef
  [99, 115, 116, 100, 105, 110, 116],  -- cstdint
  [99, 115, 116, 100, 105, 111],  -- cstdio
  [99, 115, 116, 100, 108, 105, 98],  -- cstdlib
  [99, 115, 116, 114, 105, 110, 103],  -- cstring
  [99, 116, 103, 109, 97, 116, 104],  -- ctgmath
  [99, 116, 105, 109, 101],  -- ctime
  [99, 119, 99, 104, 97, 114],  -- cwchar
  [99, 119, 99, 116, 121, 112, 101],  -- cwctype
  [100, 101, 113, 117, 101],  -- deque
  [101, 120, 99, 101, 112, 116, 105, 111, 110],  -- exception
  [102, 115, 116, 114, 101, 97, 109],  -- fstream
  [102, 117, 110, 99, 116, 105, 111, 110, 97, 108],  -- functional
  [105, 111, 109, 97, 110, 105, 112],  -- iomanip
  [105, 111, 115],  -- ios
  [105, 111, 115, 102, 119, 100],  -- iosfwd
  [105, 111, 115, 116, 114, 101, 97, 109],  -- iostream
  [105, 115, 116, 114, 101, 97, 109],  -- istream
  [105, 116, 101, 114, 97, 116, 111, 114],  -- iterator
  [108, 105, 109, 105, 116, 115],  -- limits
  [108, 105, 115, 116],  -- list
  [108, 111, 99, 97, 108, 101],  -- locale
  [109, 97, 112],  -- map
  [109, 101, 109, 111, 114, 121],  -- memory
  [110, 101, 119],  -- new
  [110, 117, 109, 101, 114, 105, 99],  -- numeric
  [111, 115, 116, 114, 101, 97, 109],  -- ostream
  [113, 117, 101, 117, 101],  -- queue
  [114, 97, 110, 100, 111, 109],  -- random
  [114, 101, 103, 101, 120],  -- regex
  [115, 101, 116],  -- set
  [115, 115, 116, 114, 101, 97, 109],  -- sstream
  [115, 116, 97, 99, 107],  -- stack
  [115, 116, 100, 101, 120, 99, 101, 112, 116],  -- stdexcept
  [115, 116, 114, 101, 97, 109, 98, 117, 102],  -- streambuf
  [115, 116, 114, 105, 110, 103],  -- string
  [115, 121, 115, 116, 101, 109, 95, 101, 114, 114, 111, 114],  -- system_error
  [116, 117, 112, 108, 101],  -- tuple
  [116, 121, 112, 101, 95, 116, 114, 97, 105, 116, 115],  -- type_traits
  [116, 121, 112, 101, 105, 110, 102, 111],  -- typeinfo
  [117, 110, 111, 114, 100, 101, 114, 101, 100, 95, 109, 97, 112],  -- unordered_map
  [117, 110, 111, 114, 100, 101, 114, 101, 100, 95, 115, 101, 116],  -- unordered_set
  [117, 116, 105, 108, 105, 116, 121],  -- utility
  [118, 97, 108, 97, 114, 114, 97, 121],  -- valarray
  [118, 101, 99, 116, 111, 114],  -- vector
  [116, 114, 49, 47, 97, 114, 114, 97, 121],  -- tr1/array
  [116, 114, 49, 47, 99, 99, 111, 109, 112, 108, 101, 120],  -- tr1/ccomplex
  [116, 114, 49, 47, 99, 99, 116, 121, 112, 101],  -- tr1/cctype
  [116, 114, 49, 47, 99, 102, 101, 110, 118],  -- tr1/cfenv
  [116, 114, 49, 47, 99, 102, 108, 111, 97, 116],  -- tr1/cfloat
  [116, 114, 49, 47, 99, 105, 110, 116, 116, 121, 112, 101, 115],  -- tr1/cinttypes
  [116, 114, 49, 47, 99, 108, 105, 109, 105, 116, 115],  -- tr1/climits
  [116, 114, 49, 47, 99, 109, 97, 116, 104],  -- tr1/cmath
  [116, 114, 49, 47, 99, 111, 109, 112, 108, 101, 120],  -- tr1/complex
  [116, 114, 49, 47, 99, 115, 116, 100, 97, 114, 103],  -- tr1/cstdarg
  [116, 114, 49, 47, 99, 115, 116, 100, 98, 111, 111, 108],  -- tr1/cstdbool
  [116, 114, 49, 47, 99, 115, 116, 100, 105, 110, 116],  -- tr1/cstdint
  [116, 114, 49, 47, 99, 115, 116, 100, 105, 111],  -- tr1/cstdio
  [116, 114, 49, 47, 99, 115, 116, 100, 108, 105, 98],  -- tr1/cstdlib
  [116, 114, 49, 47, 99, 116, 103, 109, 97, 116, 104],  -- tr1/ctgmath
  [116, 114, 49, 47, 99, 116, 105, 109, 101],  -- tr1/ctime
  [116, 114, 49, 47, 99, 119, 99, 104, 97, 114],  -- tr1/cwchar
  [116, 114, 49, 47, 99, 119, 99, 116, 121, 112, 101],  -- tr1/cwctype
  [116, 114, 49, 47, 109, 101, 109, 111, 114, 121],  -- tr1/memory
  [116, 114, 49, 47, 114, 97, 110, 100, 111, 109],  -- tr1/random
  [116, 114, 49, 47, 114, 101, 103, 101, 120],  -- tr1/regex
  [116, 114, 49, 47, 116, 117, 112, 108, 101],  -- tr1/tuple
  [116, 114, 49, 47, 116, 121, 112, 101, 95, 116, 114, 97, 105, 116, 115],  -- tr1/type_traits
  [116, 114, 49, 47, 117, 110, 111, 114, 100, 101, 114, 101, 100, 95, 109, 97, 112],  -- tr1/unordered_map
  [116, 114, 49, 47, 117, 110, 111, 114, 100, 101, 114, 101, 100, 95, 115, 101, 116],  -- tr1/unordered_set
  [116, 114, 49, 47, 117, 116, 105, 108, 105, 116, 121]  -- tr1/utility
]

/-- src/hash/disambiguatefuncs.gperf:28-47. The ids that have a disambiguation function. -/
def disambiguators : List (String) := [
  "aspx",  -- aspx
  "asx",  -- asx
  "b",  -- b
  "basic",  -- basic
  "cs",  -- cs
  "dat",  -- dat
  "def",  -- def
  "fortran",  -- fortran
  "fs",  -- fs
  "h",  -- h
  "in",  -- in
  "inc",  -- inc
  "m",  -- m
  "mod",  -- mod
  "pl",  -- pl
  "pp",  -- pp
  "pro",  -- pro
  "r",  -- r
  "rs",  -- rs
  "st"  -- st
]

/-- The identifiers of src/languages.h:9-131. -/
def identifiers : List String := [
  "actionscript", "ada", "ampl", "assembler", "augeas", "autoconf",
  "automake", "awk", "brainfuck", "bfpp", "bat", "blitzmax",
  "boo", "c", "chaiscript", "classic_basic", "clearsilver", "clearsilver_template",
  "clojure", "cmake", "coffeescript", "coq", "cpp", "crystal",
  "cs_aspx", "csharp", "css", "cuda", "dart", "dcl",
  "dmd", "dylan", "ebuild", "ec", "eiffel", "elm",
  "erlang", "exheres", "emacslisp", "factor", "forth", "fortranfixed",
  "fortranfree", "fsharp", "genie", "glsl", "golang", "grace",
  "groovy", "haskell", "haml", "haxe", "html", "idl_pvwave",
  "jam", "java", "javascript", "julia", "jsp", "kotlin",
  "limbo", "lisp", "livecode", "logtalk", "lua", "make",
  "mathematica", "matlab", "metafont", "metapost", "metapost_with_tex", "modelica",
  "modula2", "modula3", "mxml", "nix", "nsis", "oberon",
  "objective_c", "objective_j", "ocaml", "octave", "pascal", "perl",
  "php", "pike", "postscript", "powershell", "prolog", "puppet",
  "python", "qml", "r", "racket", "rebol", "rexx",
  "rhtml", "ruby", "rust", "scala", "scheme", "scilab",
  "shell", "smalltalk", "stratego", "structured_basic", "sql", "swift",
  "tcl", "tex", "tex_dtx", "umple", "unrealscript", "typescript",
  "vala", "vb_aspx", "vhdl", "vim", "visualbasic", "xaml",
  "xml", "xslt", "xmlschema"
]

end Ohcount.Tables
