import Verif.Cert.N5
import Verif.RagelSafe

/-! Generated by tools/gen_certs.py. -/

namespace Ohcount.Cert
open Ohcount.Ragel Ohcount.Gram

set_option maxRecDepth 100000

def ac_line_sTab : List (List SA) := [[⟨0,0,false,none,none,none⟩],[⟨1,0,false,some (.own 0),some 0,none⟩,⟨2,0,false,some (.own 0),some 0,none⟩,⟨3,0,false,some (.own 0),some 0,none⟩],[⟨1,0,false,some .newline,none,none⟩],[⟨1,0,false,some .newline,some 3,none⟩],[⟨1,0,true,some (.own 3),some 4,none⟩],[⟨1,0,false,some (.own 3),some 4,none⟩],[⟨2,0,true,some (.own 3),some 4,none⟩,⟨3,0,true,some (.own 3),some 4,none⟩,⟨3,0,true,some .internalNl,some 4,none⟩],[⟨2,0,true,some (.own 3),some 4,none⟩,⟨3,0,true,some (.own 3),some 4,none⟩,⟨3,0,true,some .internalNl,some 4,none⟩],[⟨2,0,true,some (.own 3),some 4,none⟩,⟨3,0,true,some (.own 3),some 4,none⟩,⟨3,0,true,some .internalNl,some 4,none⟩],[⟨2,0,true,some (.own 3),some 4,none⟩,⟨3,0,true,some (.own 3),some 4,none⟩,⟨3,0,true,some .internalNl,some 4,none⟩],[⟨2,0,true,some (.own 3),some 4,none⟩,⟨3,0,true,some (.own 3),some 4,none⟩,⟨3,0,true,some .internalNl,some 4,none⟩],[⟨2,0,true,some (.own 3),some 4,none⟩,⟨3,0,true,some (.own 3),some 4,none⟩,⟨3,0,true,some .internalNl,some 4,none⟩],[⟨2,0,true,some (.own 3),some 4,none⟩,⟨3,0,true,some (.own 3),some 4,none⟩,⟨3,0,true,some .internalNl,some 4,none⟩],[⟨2,0,true,some (.own 3),some 4,none⟩,⟨3,0,true,some (.own 3),some 4,none⟩,⟨3,0,true,some .internalNl,some 4,none⟩],[⟨2,0,false,some (.own 3),some 4,none⟩],[⟨3,0,true,some (.own 3),some 4,none⟩,⟨3,0,true,some .internalNl,some 4,none⟩],[⟨3,0,true,some .internalNl,some 4,none⟩],[⟨3,0,true,some (.own 3),some 1,none⟩],[⟨3,0,true,some (.own 3),some 1,none⟩],[⟨3,0,true,some (.own 3),some 1,none⟩],[⟨3,0,true,some (.own 3),some 1,none⟩]]
theorem ac_line_sClosed : closed ac_line_rows ac_line_sTab SA.init (SA.succ ac_line_M) (SA.eofOk ac_line_M) = true := by
  decide +kernel
def ac_line_S : SCert ac_line_M := ⟨ac_line_D, ac_line_sTab, ac_line_sClosed⟩

def am_line_sTab : List (List SA) := [[⟨0,0,false,none,none,none⟩],[⟨1,0,false,some (.own 0),some 0,none⟩,⟨2,0,false,some (.own 0),some 0,none⟩,⟨3,0,false,some (.own 0),some 0,none⟩],[⟨1,0,false,some .newline,none,none⟩],[⟨1,0,false,some .newline,some 3,none⟩],[⟨1,0,true,some (.own 3),some 4,none⟩],[⟨1,0,true,some (.own 3),some 1,none⟩],[⟨1,0,true,some (.own 3),some 4,none⟩],[⟨2,0,true,some (.own 3),some 4,none⟩,⟨3,0,true,some (.own 3),some 4,none⟩],[⟨2,0,true,some (.own 3),some 4,none⟩,⟨3,0,true,some (.own 3),some 4,none⟩],[⟨2,0,true,some (.own 3),some 1,none⟩,⟨3,0,true,some (.own 3),some 1,none⟩],[⟨2,0,true,some (.own 3),some 4,none⟩,⟨3,0,true,some (.own 3),some 4,none⟩],[⟨2,0,true,some (.own 3),some 4,none⟩,⟨3,0,true,some (.own 3),some 4,none⟩],[⟨3,0,true,some (.own 3),some 4,none⟩],[⟨3,0,true,some (.own 3),some 4,none⟩]]
theorem am_line_sClosed : closed am_line_rows am_line_sTab SA.init (SA.succ am_line_M) (SA.eofOk am_line_M) = true := by
  decide +kernel
def am_line_S : SCert am_line_M := ⟨am_line_D, am_line_sTab, am_line_sClosed⟩

def bfpp_line_sTab : List (List SA) := [[⟨0,0,false,none,none,none⟩],[⟨1,0,false,some (.own 0),some 0,none⟩,⟨2,0,false,some (.own 0),some 0,none⟩,⟨3,0,false,some (.own 0),some 0,none⟩],[⟨1,0,false,some .newline,none,none⟩],[⟨1,0,false,some .newline,some 1,none⟩],[⟨1,0,true,some (.own 1),some 2,none⟩],[⟨1,0,false,some (.own 1),some 5,none⟩],[⟨2,0,true,some (.own 1),some 2,none⟩,⟨3,0,true,some (.own 1),some 2,none⟩],[⟨2,0,false,some (.own 1),some 5,none⟩],[⟨3,0,false,some (.own 1),some 5,none⟩],[⟨3,0,false,some (.own 1),some 5,none⟩],[⟨3,0,false,some (.own 1),some 5,none⟩],[⟨3,0,false,some (.own 1),some 5,none⟩],[⟨3,0,false,some (.own 1),some 5,none⟩],[⟨3,0,false,some (.own 1),some 5,none⟩],[⟨3,0,true,some (.own 1),some 5,none⟩],[⟨3,0,true,some (.own 1),some 5,none⟩,⟨3,0,true,some .internalNl,some 5,none⟩],[⟨3,0,true,some (.own 1),some 5,none⟩,⟨3,0,true,some .internalNl,some 5,none⟩],[⟨3,0,true,some (.own 1),some 5,none⟩,⟨3,0,true,some .internalNl,some 5,none⟩],[⟨3,0,true,some (.own 1),some 5,none⟩,⟨3,0,true,some .internalNl,some 5,none⟩],[⟨3,0,true,some (.own 1),some 5,none⟩,⟨3,0,true,some .internalNl,some 5,none⟩],[⟨3,0,true,some (.own 1),some 5,none⟩,⟨3,0,true,some .internalNl,some 5,none⟩],[⟨3,0,true,some (.own 1),some 5,none⟩,⟨3,0,true,some .internalNl,some 5,none⟩],[⟨3,0,true,some .internalNl,some 5,none⟩]]
theorem bfpp_line_sClosed : closed bfpp_line_rows bfpp_line_sTab SA.init (SA.succ bfpp_line_M) (SA.eofOk bfpp_line_M) = true := by
  decide +kernel
def bfpp_line_S : SCert bfpp_line_M := ⟨bfpp_line_D, bfpp_line_sTab, bfpp_line_sClosed⟩

def lua_line_sTab : List (List SA) := [[⟨0,0,false,none,none,none⟩],[⟨1,0,false,some (.own 0),some 0,none⟩,⟨2,0,false,some (.own 0),some 0,none⟩,⟨3,0,false,some (.own 0),some 0,none⟩],[⟨1,0,false,some .newline,none,none⟩],[⟨1,0,false,some .newline,some 3,none⟩],[⟨1,0,true,some (.own 7),some 4,none⟩],[⟨1,0,true,some (.own 7),some 4,none⟩],[⟨1,0,false,some (.own 7),some 4,none⟩],[⟨1,0,false,some (.own 7),some 4,none⟩],[⟨2,0,true,some (.own 7),some 4,none⟩,⟨3,0,true,some (.own 7),some 4,none⟩,⟨3,0,true,some .internalNl,some 4,none⟩],[⟨2,0,true,some (.own 7),some 4,none⟩,⟨3,0,true,some (.own 7),some 4,none⟩,⟨3,0,true,some .internalNl,some 4,none⟩],[⟨2,0,true,some (.own 7),some 4,none⟩,⟨3,0,true,some (.own 7),some 4,none⟩,⟨3,0,true,some .internalNl,some 4,none⟩],[⟨2,0,true,some (.own 7),some 4,none⟩,⟨3,0,true,some (.own 7),some 4,none⟩,⟨3,0,true,some .internalNl,some 4,none⟩],[⟨2,0,true,some (.own 7),some 4,none⟩,⟨3,0,true,some (.own 7),some 4,none⟩,⟨3,0,true,some .internalNl,some 4,none⟩],[⟨2,0,true,some (.own 7),some 4,none⟩,⟨3,0,true,some (.own 7),some 4,none⟩,⟨3,0,true,some .internalNl,some 4,none⟩],[⟨2,0,true,some (.own 7),some 4,none⟩,⟨3,0,true,some (.own 7),some 4,none⟩,⟨3,0,true,some .internalNl,some 4,none⟩],[⟨2,0,true,some (.own 7),some 4,none⟩,⟨3,0,true,some (.own 7),some 4,none⟩,⟨3,0,true,some .internalNl,some 4,none⟩],[⟨2,0,true,some (.own 7),some 4,none⟩,⟨3,0,true,some (.own 7),some 4,none⟩,⟨3,0,true,some .internalNl,some 4,none⟩],[⟨2,0,true,some (.own 7),some 4,none⟩,⟨3,0,true,some (.own 7),some 4,none⟩,⟨3,0,true,some .internalNl,some 4,none⟩],[⟨2,0,true,some (.own 7),some 4,none⟩,⟨3,0,true,some (.own 7),some 4,none⟩,⟨3,0,true,some .internalNl,some 4,none⟩],[⟨2,0,true,some (.own 7),some 4,none⟩,⟨3,0,true,some (.own 7),some 4,none⟩,⟨3,0,true,some .internalNl,some 4,none⟩],[⟨2,0,true,some (.own 7),some 4,none⟩,⟨3,0,true,some (.own 7),some 4,none⟩,⟨3,0,true,some .internalNl,some 4,none⟩],[⟨2,0,true,some (.own 7),some 4,none⟩,⟨3,0,true,some (.own 7),some 4,none⟩,⟨3,0,true,some .internalNl,some 4,none⟩],[⟨2,0,true,some (.own 7),some 1,none⟩],[⟨2,0,false,some (.own 7),some 4,none⟩,⟨3,0,false,some (.own 7),some 4,none⟩],[⟨2,0,true,some (.own 7),some 4,none⟩,⟨3,0,true,some (.own 7),some 4,none⟩],[⟨3,0,true,some (.own 7),some 4,none⟩,⟨3,0,true,some .internalNl,some 4,none⟩],[⟨3,0,true,some .internalNl,some 4,none⟩],[⟨3,0,true,some (.own 7),some 4,none⟩,⟨3,0,true,some .internalNl,some 4,none⟩],[⟨3,0,true,some (.own 7),some 4,none⟩,⟨3,0,true,some .internalNl,some 4,none⟩],[⟨3,0,true,some .internalNl,some 4,none⟩],[⟨3,0,true,some (.own 7),some 4,none⟩,⟨3,0,true,some .internalNl,some 4,none⟩],[⟨3,0,true,some (.own 7),some 1,none⟩],[⟨3,0,true,some (.own 7),some 1,none⟩],[⟨3,0,true,some (.own 7),some 4,none⟩,⟨3,0,true,some .internalNl,some 4,none⟩],[⟨3,0,true,some (.own 7),some 4,none⟩,⟨3,0,true,some .internalNl,some 4,none⟩],[⟨3,0,true,some (.own 7),some 4,none⟩,⟨3,0,true,some .internalNl,some 4,none⟩],[⟨3,0,true,some (.own 7),some 4,none⟩,⟨3,0,true,some .internalNl,some 4,none⟩],[⟨3,0,true,some (.own 7),some 4,none⟩,⟨3,0,true,some .internalNl,some 4,none⟩],[⟨3,0,true,some (.own 7),some 4,none⟩,⟨3,0,true,some .internalNl,some 4,none⟩],[⟨3,0,true,some (.own 7),some 4,none⟩,⟨3,0,true,some .internalNl,some 4,none⟩],[⟨3,0,true,some (.own 7),some 1,none⟩],[⟨3,0,true,some (.own 7),some 1,none⟩],[⟨3,0,true,some (.own 7),some 4,none⟩,⟨3,0,true,some .internalNl,some 4,none⟩],[⟨3,0,true,some .internalNl,some 4,none⟩],[⟨3,0,true,some (.own 7),some 4,none⟩,⟨3,0,true,some .internalNl,some 4,none⟩],[⟨3,0,true,some (.own 7),some 1,none⟩],[⟨3,0,true,some (.own 7),some 1,none⟩],[⟨3,0,true,some (.own 7),some 1,none⟩,⟨3,0,true,some .internalNl,some 1,none⟩],[⟨3,0,true,some (.own 7),some 1,none⟩,⟨3,0,true,some .internalNl,some 1,none⟩],[⟨3,0,true,some (.own 7),some 1,none⟩,⟨3,0,true,some .internalNl,some 1,none⟩],[⟨3,0,true,some (.own 7),some 1,none⟩,⟨3,0,true,some .internalNl,some 1,none⟩],[⟨3,0,true,some (.own 7),some 1,none⟩],[⟨3,0,true,some .internalNl,some 1,none⟩],[⟨3,0,true,some .internalNl,some 1,none⟩],[⟨3,0,true,some .internalNl,some 1,none⟩],[⟨3,0,true,some (.own 7),some 1,none⟩,⟨3,0,true,some .internalNl,some 1,none⟩],[⟨3,0,true,some .internalNl,some 1,none⟩],[⟨3,0,true,some (.own 7),some 1,none⟩],[⟨3,0,true,some (.own 7),some 1,none⟩],[⟨3,0,true,some .internalNl,some 1,none⟩]]
theorem lua_line_sClosed : closed lua_line_rows lua_line_sTab SA.init (SA.succ lua_line_M) (SA.eofOk lua_line_M) = true := by
  decide +kernel
def lua_line_S : SCert lua_line_M := ⟨lua_line_D, lua_line_sTab, lua_line_sClosed⟩

def metapost_line_sTab : List (List SA) := [[⟨0,0,false,none,none,none⟩],[⟨1,0,false,some (.own 0),some 0,none⟩,⟨2,0,false,some (.own 0),some 0,none⟩,⟨3,0,false,some (.own 0),some 0,none⟩],[⟨1,0,false,some .newline,none,none⟩],[⟨1,0,false,some .newline,some 3,none⟩],[⟨1,0,true,some (.own 3),some 4,none⟩],[⟨0,1,true,some (.own 3),some 1,some 37⟩],[⟨2,0,true,some (.own 3),some 4,none⟩,⟨3,0,true,some (.own 3),some 4,none⟩],[⟨2,0,true,some (.own 3),some 4,none⟩,⟨3,0,true,some (.own 3),some 4,none⟩],[⟨1,1,true,some (.own 3),some 1,none⟩,⟨2,1,true,some (.own 3),some 1,none⟩,⟨3,1,true,some (.own 3),some 1,none⟩],[⟨3,0,true,some (.own 3),some 4,none⟩]]
theorem metapost_line_sClosed : closed metapost_line_rows metapost_line_sTab SA.init (SA.succ metapost_line_M) (SA.eofOk metapost_line_M) = true := by
  decide +kernel
def metapost_line_S : SCert metapost_line_M := ⟨metapost_line_D, metapost_line_sTab, metapost_line_sClosed⟩

def pascal_line_sTab : List (List SA) := [[⟨0,0,false,none,none,none⟩],[⟨1,0,false,some (.own 0),some 0,none⟩,⟨2,0,false,some (.own 0),some 0,none⟩,⟨3,0,false,some (.own 0),some 0,none⟩],[⟨1,0,false,some .newline,none,none⟩],[⟨1,0,false,some .newline,some 3,none⟩],[⟨1,0,true,some (.own 3),some 4,none⟩],[⟨1,0,false,some (.own 3),some 4,none⟩],[⟨1,0,false,some (.own 3),some 4,none⟩],[⟨1,0,true,some (.own 3),some 4,none⟩],[⟨2,0,true,some (.own 3),some 4,none⟩,⟨3,0,true,some (.own 3),some 4,none⟩,⟨3,0,true,some .internalNl,some 4,none⟩],[⟨2,0,true,some (.own 3),some 4,none⟩,⟨3,0,true,some (.own 3),some 4,none⟩,⟨3,0,true,some .internalNl,some 4,none⟩],[⟨2,0,true,some (.own 3),some 4,none⟩,⟨3,0,true,some (.own 3),some 4,none⟩,⟨3,0,true,some .internalNl,some 4,none⟩],[⟨2,0,true,some (.own 3),some 4,none⟩,⟨3,0,true,some (.own 3),some 4,none⟩,⟨3,0,true,some .internalNl,some 4,none⟩],[⟨2,0,true,some (.own 3),some 4,none⟩,⟨3,0,true,some (.own 3),some 4,none⟩,⟨3,0,true,some .internalNl,some 4,none⟩],[⟨2,0,true,some (.own 3),some 4,none⟩,⟨3,0,true,some (.own 3),some 4,none⟩,⟨3,0,true,some .internalNl,some 4,none⟩],[⟨2,0,true,some (.own 3),some 4,none⟩,⟨3,0,true,some (.own 3),some 4,none⟩,⟨3,0,true,some .internalNl,some 4,none⟩],[⟨2,0,true,some (.own 3),some 4,none⟩],[⟨2,0,true,some (.own 3),some 1,none⟩],[⟨2,0,true,some (.own 3),some 4,none⟩,⟨3,0,true,some (.own 3),some 4,none⟩,⟨3,0,true,some .internalNl,some 4,none⟩],[⟨2,0,true,some (.own 3),some 4,none⟩,⟨3,0,true,some (.own 3),some 4,none⟩,⟨3,0,true,some .internalNl,some 4,none⟩],[⟨2,0,true,some (.own 3),some 4,none⟩,⟨3,0,true,some (.own 3),some 4,none⟩,⟨3,0,true,some .internalNl,some 4,none⟩],[⟨2,0,true,some (.own 3),some 4,none⟩,⟨3,0,true,some (.own 3),some 4,none⟩,⟨3,0,true,some .internalNl,some 4,none⟩],[⟨2,0,true,some (.own 3),some 4,none⟩,⟨3,0,true,some (.own 3),some 4,none⟩,⟨3,0,true,some .internalNl,some 4,none⟩],[⟨2,0,true,some (.own 3),some 4,none⟩,⟨3,0,true,some (.own 3),some 4,none⟩,⟨3,0,true,some .internalNl,some 4,none⟩],[⟨3,0,true,some (.own 3),some 4,none⟩,⟨3,0,true,some .internalNl,some 4,none⟩],[⟨3,0,true,some .internalNl,some 4,none⟩],[⟨3,0,true,some (.own 3),some 4,none⟩,⟨3,0,true,some .internalNl,some 4,none⟩],[⟨3,0,true,some (.own 3),some 4,none⟩,⟨3,0,true,some .internalNl,some 4,none⟩],[⟨3,0,true,some (.own 3),some 4,none⟩,⟨3,0,true,some .internalNl,some 4,none⟩],[⟨3,0,true,some (.own 3),some 4,none⟩,⟨3,0,true,some .internalNl,some 4,none⟩],[⟨3,0,true,some (.own 3),some 4,none⟩,⟨3,0,true,some .internalNl,some 4,none⟩],[⟨3,0,true,some (.own 3),some 4,none⟩,⟨3,0,true,some .internalNl,some 4,none⟩],[⟨3,0,true,some (.own 3),some 4,none⟩,⟨3,0,true,some .internalNl,some 4,none⟩],[⟨3,0,true,some (.own 3),some 4,none⟩,⟨3,0,true,some .internalNl,some 4,none⟩],[⟨3,0,true,some (.own 3),some 1,none⟩],[⟨3,0,true,some (.own 3),some 4,none⟩,⟨3,0,true,some .internalNl,some 4,none⟩],[⟨3,0,true,some .internalNl,some 4,none⟩],[⟨3,0,true,some (.own 3),some 4,none⟩,⟨3,0,true,some .internalNl,some 4,none⟩],[⟨3,0,true,some .internalNl,some 4,none⟩]]
theorem pascal_line_sClosed : closed pascal_line_rows pascal_line_sTab SA.init (SA.succ pascal_line_M) (SA.eofOk pascal_line_M) = true := by
  decide +kernel
def pascal_line_S : SCert pascal_line_M := ⟨pascal_line_D, pascal_line_sTab, pascal_line_sClosed⟩

def swift_line_sTab : List (List SA) := [[⟨0,0,false,none,none,none⟩],[⟨1,0,false,some (.own 0),some 0,none⟩,⟨2,0,false,some (.own 0),some 0,none⟩,⟨3,0,false,some (.own 0),some 0,none⟩],[⟨1,0,false,some .newline,none,none⟩],[⟨1,0,false,some .newline,some 2,none⟩],[⟨1,0,false,some (.own 2),some 3,none⟩],[⟨2,0,true,some (.own 2),some 3,none⟩],[⟨2,0,true,some (.own 2),some 1,none⟩],[⟨3,0,true,some (.own 2),some 3,none⟩,⟨3,0,true,some .internalNl,some 3,none⟩],[⟨3,0,true,some (.own 2),some 3,none⟩,⟨3,0,true,some .internalNl,some 3,none⟩],[⟨3,0,true,some (.own 2),some 3,none⟩,⟨3,0,true,some .internalNl,some 3,none⟩],[⟨3,0,true,some (.own 2),some 3,none⟩,⟨3,0,true,some .internalNl,some 3,none⟩],[⟨3,0,true,some (.own 2),some 3,none⟩,⟨3,0,true,some .internalNl,some 3,none⟩],[⟨3,0,true,some (.own 2),some 3,none⟩,⟨3,0,true,some .internalNl,some 3,none⟩],[⟨3,0,true,some (.own 2),some 3,none⟩,⟨3,0,true,some .internalNl,some 3,none⟩],[⟨3,0,true,some (.own 2),some 1,none⟩,⟨3,0,true,some .internalNl,some 1,none⟩],[⟨3,0,true,some (.own 2),some 1,none⟩,⟨3,0,true,some .internalNl,some 1,none⟩],[⟨3,0,true,some (.own 2),some 1,none⟩,⟨3,0,true,some .internalNl,some 1,none⟩],[⟨3,0,true,some (.own 2),some 3,none⟩,⟨3,0,true,some .internalNl,some 3,none⟩],[⟨3,0,true,some .internalNl,some 3,none⟩],[⟨3,0,true,some (.own 2),some 1,none⟩,⟨3,0,true,some .internalNl,some 1,none⟩],[⟨3,0,true,some (.own 2),some 1,none⟩,⟨3,0,true,some .internalNl,some 1,none⟩],[⟨3,0,true,some (.own 2),some 1,none⟩,⟨3,0,true,some .internalNl,some 1,none⟩],[⟨3,0,true,some (.own 2),some 1,none⟩,⟨3,0,true,some .internalNl,some 1,none⟩],[⟨3,0,true,some (.own 2),some 1,none⟩,⟨3,0,true,some .internalNl,some 1,none⟩]]
theorem swift_line_sClosed : closed swift_line_rows swift_line_sTab SA.init (SA.succ swift_line_M) (SA.eofOk swift_line_M) = true := by
  decide +kernel
def swift_line_S : SCert swift_line_M := ⟨swift_line_D, swift_line_sTab, swift_line_sClosed⟩

def tex_line_sTab : List (List SA) := [[⟨0,0,false,none,none,none⟩],[⟨1,0,false,some (.own 0),some 0,none⟩,⟨2,0,false,some (.own 0),some 0,none⟩,⟨3,0,false,some (.own 0),some 0,none⟩],[⟨1,0,false,some .newline,none,none⟩],[⟨1,0,false,some .newline,some 2,none⟩],[⟨1,0,true,some (.own 3),some 1,none⟩],[⟨2,0,true,some (.own 3),some 1,none⟩,⟨3,0,true,some (.own 3),some 1,none⟩]]
theorem tex_line_sClosed : closed tex_line_rows tex_line_sTab SA.init (SA.succ tex_line_M) (SA.eofOk tex_line_M) = true := by
  decide +kernel
def tex_line_S : SCert tex_line_M := ⟨tex_line_D, tex_line_sTab, tex_line_sClosed⟩

def xmlschema_line_sTab : List (List SA) := [[⟨0,0,false,none,none,none⟩],[⟨1,0,false,some (.own 0),some 0,none⟩,⟨2,0,false,some (.own 0),some 0,none⟩,⟨3,0,false,some (.own 0),some 0,none⟩],[⟨1,0,false,some .newline,none,none⟩],[⟨1,0,false,some .newline,some 3,none⟩],[⟨1,0,false,some (.own 5),some 4,none⟩],[⟨1,0,false,some (.own 5),some 4,none⟩],[⟨1,0,false,some (.own 5),some 4,none⟩],[⟨2,0,false,some (.own 5),some 4,none⟩,⟨3,0,false,some (.own 5),some 4,none⟩],[⟨2,0,false,some (.own 5),some 4,none⟩,⟨3,0,false,some (.own 5),some 4,none⟩],[⟨2,0,false,some (.own 5),some 4,none⟩,⟨3,0,false,some (.own 5),some 4,none⟩],[⟨2,0,false,some (.own 5),some 4,none⟩,⟨3,0,false,some (.own 5),some 4,none⟩],[⟨2,0,false,some (.own 5),some 4,none⟩],[⟨3,0,false,some (.own 5),some 4,none⟩],[⟨3,0,false,some (.own 5),some 4,none⟩],[⟨3,0,false,some (.own 5),some 4,none⟩],[⟨3,0,false,some (.own 5),some 4,none⟩],[⟨3,0,true,some (.own 5),some 4,none⟩],[⟨3,0,false,some (.own 5),some 4,none⟩],[⟨3,0,true,some (.own 5),some 4,none⟩,⟨3,0,true,some .internalNl,some 4,none⟩],[⟨3,0,true,some (.own 5),some 4,none⟩,⟨3,0,true,some .internalNl,some 4,none⟩],[⟨3,0,true,some (.own 5),some 4,none⟩,⟨3,0,true,some .internalNl,some 4,none⟩],[⟨3,0,true,some (.own 5),some 4,none⟩,⟨3,0,true,some .internalNl,some 4,none⟩],[⟨3,0,true,some (.own 5),some 4,none⟩,⟨3,0,true,some .internalNl,some 4,none⟩],[⟨3,0,true,some (.own 5),some 4,none⟩,⟨3,0,true,some .internalNl,some 4,none⟩],[⟨3,0,true,some (.own 5),some 4,none⟩,⟨3,0,true,some .internalNl,some 4,none⟩],[⟨3,0,false,some (.own 5),some 4,none⟩],[⟨3,0,true,some (.own 5),some 4,none⟩,⟨3,0,true,some .internalNl,some 4,none⟩],[⟨3,0,true,some .internalNl,some 4,none⟩],[⟨3,0,true,some (.own 5),some 4,none⟩,⟨3,0,true,some .internalNl,some 4,none⟩],[⟨3,0,false,some (.own 5),some 4,none⟩],[⟨3,0,false,some (.own 5),some 4,none⟩],[⟨3,0,false,some (.own 5),some 4,none⟩],[⟨3,0,true,some (.own 5),some 4,none⟩],[⟨3,0,true,some (.own 5),some 4,none⟩,⟨3,0,true,some .internalNl,some 4,none⟩],[⟨3,0,true,some (.own 5),some 4,none⟩,⟨3,0,true,some .internalNl,some 4,none⟩],[⟨3,0,true,some (.own 5),some 4,none⟩,⟨3,0,true,some .internalNl,some 4,none⟩],[⟨3,0,true,some (.own 5),some 4,none⟩,⟨3,0,true,some .internalNl,some 4,none⟩],[⟨3,0,true,some (.own 5),some 4,none⟩,⟨3,0,true,some .internalNl,some 4,none⟩],[⟨3,0,true,some (.own 5),some 4,none⟩,⟨3,0,true,some .internalNl,some 4,none⟩],[⟨3,0,true,some (.own 5),some 4,none⟩,⟨3,0,true,some .internalNl,some 4,none⟩],[⟨3,0,true,some (.own 5),some 4,none⟩,⟨3,0,true,some .internalNl,some 4,none⟩],[⟨3,0,true,some .internalNl,some 4,none⟩],[⟨3,0,true,some (.own 5),some 4,none⟩,⟨3,0,true,some .internalNl,some 4,none⟩]]
theorem xmlschema_line_sClosed : closed xmlschema_line_rows xmlschema_line_sTab SA.init (SA.succ xmlschema_line_M) (SA.eofOk xmlschema_line_M) = true := by
  decide +kernel
def xmlschema_line_S : SCert xmlschema_line_M := ⟨xmlschema_line_D, xmlschema_line_sTab, xmlschema_line_sClosed⟩

end Ohcount.Cert
