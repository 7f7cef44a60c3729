import Verif.Pcre

/-!
`license_map` of `src/licenses.c:12-734` with the expressions, verbatim (generated by
`tools/gen_licenses.py`; the numbers are lines of `src/licenses.c`).  Simplified: URLs are
left out.
-/

namespace Ohcount.Licenses

open Ohcount.Pcre

/-- An expression of the table with its flags: `PCRE_CASELESS`, `PCRE_MULTILINE`,
src/licenses.c:12-734. -/
structure Source where
  /-- the expression -/
  re : List Char
  /-- `PCRE_CASELESS` -/
  caseless : Bool
  /-- `PCRE_MULTILINE` -/
  multiline : Bool

/-- A `License`, src/structs.h: `name`, `nice_name`, `re` with `re_flags`, `exclude_re` with
`exclude_re_flags`. -/
structure Entry where
  /-- `name` -/
  name : String
  /-- `nice_name` -/
  nice : List Char
  /-- `re`, `re_flags` -/
  re : Source
  /-- `exclude_re`, `exclude_re_flags` -/
  exclude : Option Source

/-- `license_map`, src/licenses.c:12-734. -/
def entries : List Entry := [
  -- 13-22
  ⟨"academic", chars!"Academic Free License",
    ⟨chars!"\\bAcademic\\s*Free\\s*License\\b", true, false⟩, none⟩,
  -- 23-32
  ⟨"adaptive", chars!"Adaptive Public License",
    ⟨chars!"\\bAdaptive\\s*Public\\s*License\\b", true, false⟩, none⟩,
  -- 33-42
  ⟨"affero", chars!"GNU Affero General Public License",
    ⟨chars!"\\bGNU\\s+Affero\\s+General\\s+Public\\s+License\\b", true, false⟩, none⟩,
  -- 43-52
  ⟨"apache", chars!"Apache Software License",
    ⟨chars!"(\\bApache\\s*Software\\s*License(?![\\s,]*2))|(\\bapache\\s*license(?![\\s,]*2))", true, false⟩, none⟩,
  -- 53-62
  ⟨"apache_2", chars!"Apache License, 2.0",
    ⟨chars!"\\bapache\\s+(software\\s+)?license,?\\s+(version\\s+)?2", true, false⟩, none⟩,
  -- 63-72
  ⟨"apple_open_source", chars!"Apple Public Source License",
    ⟨chars!"\\bApple\\s*Public\\s*Source\\s*License\\b", true, false⟩, none⟩,
  -- 73-82
  ⟨"artistic", chars!"Artistic license",
    ⟨chars!"\\bartistic\\s*license\\b", true, false⟩, none⟩,
  -- 83-92
  ⟨"attribution_assurance", chars!"Attribution Assurance Licenses",
    ⟨chars!"\\battribution\\s*assurance\\s*license(s)?\\b", true, false⟩, none⟩,
  -- 93-102
  ⟨"boost", chars!"Boost Software License - Version 1.0 - August 17th, 2003",
    ⟨chars!"\\bboost\\s*software\\s*license\\b", true, false⟩, none⟩,
  -- 103-112
  ⟨"bsd", chars!"New BSD license",
    ⟨chars!"(\\bbsd\\s*license\\b)|(The Regents of the University of California)", true, false⟩, none⟩,
  -- 113-122
  ⟨"cecill", chars!"CeCILL license",
    ⟨chars!"\\bcecill\\b", true, false⟩, none⟩,
  -- 123-132
  ⟨"cecill_b", chars!"CeCILL-B license",
    ⟨chars!"\\bcecill-b\\b", true, false⟩, none⟩,
  -- 133-142
  ⟨"cecill_c", chars!"CeCILL-C license",
    ⟨chars!"\\bcecill-c\\b", true, false⟩, none⟩,
  -- 143-152
  ⟨"computer_associates_trusted", chars!"Computer Associates Trusted Open Source License 1.1",
    ⟨chars!"\\bcomputer\\s*associates\\s*trusted\\s*open\\s*source\\s*license\\b", true, false⟩, none⟩,
  -- 153-162
  ⟨"common_development_and_distribution", chars!"Common Development and Distribution License",
    ⟨chars!"\\bcommon\\s*development\\s*and\\s*distribution\\s*license\\b", true, false⟩, none⟩,
  -- 163-172
  ⟨"common_public", chars!"Common Public License 1.0",
    ⟨chars!"\\bcommon\\s*public\\s*license\\b", true, false⟩, none⟩,
  -- 173-182
  ⟨"cua_office", chars!"CUA Office Public License Version 1.0",
    ⟨chars!"\\bCUA\\s*office\\s*public\\s*license\\b", true, false⟩, none⟩,
  -- 183-192
  ⟨"eu_datagrid", chars!"EU DataGrid Software License",
    ⟨chars!"\\beu\\s*datagrid\\s*software\\s*license\\b", true, false⟩, none⟩,
  -- 193-202
  ⟨"eclipse", chars!"Eclipse Public License",
    ⟨chars!"\\beclipse\\s*public\\s*license\\b", true, false⟩, none⟩,
  -- 203-212
  ⟨"educational", chars!"Educational Community License",
    ⟨chars!"\\beducational\\s*community\\s*license\\b", true, false⟩, none⟩,
  -- 213-222
  ⟨"eiffel", chars!"Eiffel Forum License",
    ⟨chars!"\\beiffel\\s*forum\\s*license(?![,V\\s]*2)\\b", true, false⟩, none⟩,
  -- 223-232
  ⟨"eiffel_2", chars!"Eiffel Forum License V2.0",
    ⟨chars!"\\beiffel\\s*forum\\s*license [,V\\s]*2", true, false⟩, none⟩,
  -- 233-242
  ⟨"entessa", chars!"Entessa Public License",
    ⟨chars!"\\bentessa\\s*public\\s*license\\b", true, false⟩, none⟩,
  -- 243-252
  ⟨"fair", chars!"Fair License",
    ⟨chars!"\\bfair\\s*license\\b", true, false⟩, none⟩,
  -- 253-262
  ⟨"frameworx", chars!"Frameworx License",
    ⟨chars!"\\bframeworx\\s*license\\b", true, false⟩, none⟩,
  -- 263-272
  ⟨"gpl3_or_later", chars!"GNU General Public License 3.0",
    ⟨chars!"\\b(GNU GENERAL PUBLIC LICENSE|GPL).{0,100}(Version)? 3.{0,50}later", true, true⟩, none⟩,
  -- 273-282
  ⟨"gpl3", chars!"GNU General Public License 3.0",
    ⟨chars!"GNU (GENERAL PUBLIC LICENSE|GPL).{0,100}(Version |v)3", true, true⟩, (some ⟨chars!"((at your option) any later version)|(GENERAL PUBLIC LICENSE.*GENERAL PUBLIC LICENSE)", true, false⟩)⟩,
  -- 283-292
  ⟨"lgpl3", chars!"GNU Lesser General Public License 3.0",
    ⟨chars!"((\\blgpl\\b)|(\\bgnu\\s*(library|lesser)\\s*(general\\s*)?(public\\s*)?license\\b)|(\\b(lesser|library)\\s*gpl\\b)).{0,10}(\\bas published by the free software foundation\\b)?.{0,10}(\\bversion\\b)?.{0,10}\\b3(\\.0)?\\b", true, false⟩, none⟩,
  -- 293-302
  ⟨"gpl", chars!"GNU General Public License (GPL)",
    ⟨chars!"(\\bgpl\\b)|(\\bgplv2\\b)|(\\bgnu\\s*general\\s*public\\s*license\\b)|(\\bwww\\.gnu\\.org\\/licenses\\/gpl\\.txt\\b)", true, false⟩, none⟩,
  -- 303-312
  ⟨"lgpl", chars!"GNU Library or \"Lesser\" GPL (LGPL)",
    ⟨chars!"(\\blgpl\\b)|(\\bgnu\\s*(library|lesser)\\s*(general\\s*)?(public\\s*)?license\\b)|(\\b(lesser|library)\\s*gpl\\b)", true, false⟩, none⟩,
  -- 313-322
  ⟨"historical", chars!"Historical Permission Notice and Disclaimer",
    ⟨chars!"\\bhistorical\\s*permission\\s*notice\\s*and\\s*disclaimer\\b", true, false⟩, none⟩,
  -- 323-332
  ⟨"i9_license", chars!"i9 License",
    ⟨chars!"\\bi9\\s*\\s*license\\b", true, false⟩, none⟩,
  -- 333-342
  ⟨"ibm_public", chars!"IBM Public License",
    ⟨chars!"\\bibm\\s*public\\s*license\\b", true, false⟩, none⟩,
  -- 343-352
  ⟨"intel_open_source", chars!"Intel Open Source License",
    ⟨chars!"\\bintel\\s*open\\s*source\\s*license\\b", true, false⟩, none⟩,
  -- 353-362
  ⟨"jabber_open_source", chars!"Jabber Open Source License",
    ⟨chars!"\\bjabber\\s*open\\s*source\\s*license\\b", true, false⟩, none⟩,
  -- 363-372
  ⟨"lucent_plan9", chars!"Lucent Public License (Plan9)",
    ⟨chars!"\\blucent\\s*public\\s*license[\\s(]*plan9", true, false⟩, none⟩,
  -- 373-382
  ⟨"lucent_public", chars!"Lucent Public License Version 1.02",
    ⟨chars!"\\blucent\\s*public\\s*license\\s*(version)?\\s+1", true, false⟩, none⟩,
  -- 383-392
  ⟨"mit", chars!"MIT license",
    ⟨chars!"(\\bmit\\s*license\\b)|(\\bMIT\\/X11\\s*licensed?\\b)", true, false⟩, none⟩,
  -- 393-402
  ⟨"mitre", chars!"MITRE Collaborative Virtual Workspace License (CVW License)",
    ⟨chars!"\\bmitre\\s*collaborative\\s*virtual\\s*workspace\\s*license\\b", true, false⟩, none⟩,
  -- 403-412
  ⟨"motosoto", chars!"Motosoto License",
    ⟨chars!"\\bmotosoto\\s*license\\b", true, false⟩, none⟩,
  -- 413-422
  ⟨"mozilla_public_1", chars!"Mozilla Public License 1.0 (MPL)",
    ⟨chars!"\\bmozilla\\s*public\\s*license\\b", true, false⟩, none⟩,
  -- 423-432
  ⟨"mozilla_public_1_1", chars!"Mozilla Public License 1.1 (MPL)",
    ⟨chars!"\\bmozilla\\s*public\\s*license 1\\.1\\b", true, false⟩, none⟩,
  -- 433-442
  ⟨"nasa_open", chars!"NASA Open Source Agreement 1.3",
    ⟨chars!"\\bnasa\\s*open\\s*source\\s*agreement\\b", true, false⟩, none⟩,
  -- 443-452
  ⟨"naumen", chars!"Naumen Public License",
    ⟨chars!"\\bnaumen\\s*public\\s*license\\b", true, false⟩, none⟩,
  -- 453-462
  ⟨"nethack", chars!"Nethack General Public License",
    ⟨chars!"\\bnethack\\s*general\\s*public\\s*license\\b", true, false⟩, none⟩,
  -- 463-472
  ⟨"nokia_open_source", chars!"Nokia Open Source License",
    ⟨chars!"\\bnokia\\s*open\\s*source\\s*license\\b", true, false⟩, none⟩,
  -- 473-482
  ⟨"oclc_research", chars!"OCLC Research Public License 2.0",
    ⟨chars!"\\boclc\\s*research\\s*public\\s*license\\b", true, false⟩, none⟩,
  -- 483-492
  ⟨"open_group_test", chars!"Open Group Test Suite License",
    ⟨chars!"\\bopen\\s*group\\s*test\\s*suite\\s*license\\b", true, false⟩, none⟩,
  -- 493-502
  ⟨"open_software", chars!"Open Software License",
    ⟨chars!"\\bopen\\s*software\\s*license\\b", true, false⟩, none⟩,
  -- 503-512
  ⟨"php_license", chars!"PHP License",
    ⟨chars!"\\bphp\\s*license\\b", true, false⟩, none⟩,
  -- 513-522
  ⟨"python_license", chars!"Python license",
    ⟨chars!"\\bpython\\s*license\\b", true, false⟩, none⟩,
  -- 523-532
  ⟨"python_software_foundation", chars!"Python Software Foundation License",
    ⟨chars!"\\bpython\\s*software\\s*foundation\\s*license\\b", true, false⟩, none⟩,
  -- 533-542
  ⟨"qt_public", chars!"Qt Public License (QPL)",
    ⟨chars!"\\bqt\\s*public\\s*license\\b", true, false⟩, none⟩,
  -- 543-552
  ⟨"realnetworks_public_source", chars!"RealNetworks Public Source License V1.0",
    ⟨chars!"\\brealnetworks\\s*public\\s*source\\s*license\\b", true, false⟩, none⟩,
  -- 553-562
  ⟨"reciprocal_public", chars!"Reciprocal Public License",
    ⟨chars!"\\breciprocal\\s*public\\s*license\\b", true, false⟩, none⟩,
  -- 563-572
  ⟨"ricoh_source", chars!"Ricoh Source Code Public License",
    ⟨chars!"\\bricoh\\s*source\\s*code\\s*public\\s*license\\b", true, false⟩, none⟩,
  -- 573-582
  ⟨"sleepycat", chars!"Sleepycat License",
    ⟨chars!"\\bsleepycat\\s*license\\b", true, false⟩, none⟩,
  -- 583-592
  ⟨"sugarcrm_1_1_3", chars!"SugarCRM Public License 1.1.3",
    ⟨chars!"\\bsugar\\s*public\\s*license\\s*version\\s*1\\.1\\.3\\b", true, false⟩, none⟩,
  -- 593-602
  ⟨"sun_industry_standards", chars!"Sun Industry Standards Source License (SISSL)",
    ⟨chars!"\\bsun\\s*industry\\s*standards\\s*source\\s*license\\b", true, false⟩, none⟩,
  -- 603-612
  ⟨"sun_public", chars!"Sun Public License",
    ⟨chars!"\\bsun\\s*public\\s*license\\b", true, false⟩, none⟩,
  -- 613-622
  ⟨"sybase_open_watcom", chars!"Sybase Open Watcom Public License 1.0",
    ⟨chars!"\\bsybase\\s*open\\s*watcom\\s*public\\s*license\\b", true, false⟩, none⟩,
  -- 623-632
  ⟨"u_of_i_ncsa", chars!"University of Illinois/NCSA Open Source License",
    ⟨chars!"\\buniversity\\s*of\\s*illinois\\/ncsa\\s*open\\s*source\\s*license\\b", true, false⟩, none⟩,
  -- 633-642
  ⟨"vovida_software", chars!"Vovida Software License v. 1.0",
    ⟨chars!"\\bvovida\\s*software\\s*license\\b", true, false⟩, none⟩,
  -- 643-652
  ⟨"w3c", chars!"W3C License",
    ⟨chars!"\\bw3c\\s*license\\b", true, false⟩, none⟩,
  -- 653-662
  ⟨"wx_windows", chars!"wxWindows Library License",
    ⟨chars!"\\bwxwindows\\s*library\\s*license\\b", true, false⟩, none⟩,
  -- 663-672
  ⟨"x_net", chars!"X.Net License",
    ⟨chars!"\\bx\\.net\\s*license\\b", true, false⟩, none⟩,
  -- 673-682
  ⟨"zope", chars!"Zope Public License",
    ⟨chars!"\\bzope\\s*public\\s*license\\b", true, false⟩, none⟩,
  -- 683-692
  ⟨"zlib_libpng", chars!"zlib/libpng license",
    ⟨chars!"\\bzlib\\/libpng\\s*license\\b", true, false⟩, none⟩,
  -- 693-702
  ⟨"apache_ish", chars!"Apache-ish License",
    ⟨chars!"(\\bapache-style.*license\\b)|(\\bapache-like.*license\\b)", true, false⟩, none⟩,
  -- 703-712
  ⟨"bsd_ish", chars!"BSD-ish License",
    ⟨chars!"Copyright\\s.{1,40}All rights reserved.{0,40}Redistribution and use in source and binary forms, with or without.{0,20}modification, are permitted provided that the following conditions.{0,20}\\sare met.{1,40}Redistributions of source code must retain the above copyright\\s.*notice, this list of conditions and the following disclaimer\\.\\s+.*Redistributions in binary form must reproduce the above.*copyright\\s+.{0,10}notice, this list of conditions and the following.*disclaimer in the\\s+.*documentation.*(The (name|names) of the (author|contributors) may not|Neither the name of the).*be used to endorse or promote\\s+.*products\\s+.*derived\\s+.*from this software without specific prior written\\s+.*permission.*HOWEVER\\s+.*CAUSED AND ON ANY.*THEORY OF LIABILITY, WHETHER IN CONTRACT", false, true⟩, (some ⟨chars!"The Regents of the University of California", false, false⟩)⟩,
  -- 713-722
  ⟨"bsd_2clause_ish", chars!"BSD-ish (2 clause) License",
    ⟨chars!"Copyright\\s.{1,60}All rights reserved.{1,40}Redistribution and use in source and binary forms, with or without.{0,20}modification, are permitted provided that the following conditions.{0,20}\\sare met.{0,20}\\s{1,20}.{0,20}Redistributions of source code must retain the above copyright\\s+.*notice, this list of conditions and the following disclaimer.\\s+.*Redistributions in binary form must reproduce the above copyright\\s+.*notice, this list of conditions and the following disclaimer in the\\s+.*documentation and\\/or other materials provided with the distribution\\.\\s+.*HOWEVER CAUSED AND ON ANY.*THEORY OF LIABILITY, WHETHER IN CONTRACT", false, true⟩, (some ⟨chars!"(The Regents of the University of California)|(used to endorse or promote\\s+.*products\\s+.*prior\\s+.*written\\s+.*permission\\.)", false, true⟩)⟩,
  -- 723-732
  ⟨"wtfpl_2", chars!"WTF Public License",
    ⟨chars!"(\\bwtfpl\\b)|(\\bwtf\\s*public\\s*license\\b)|(\\b(do\\s*)?what\\s*the\\s*\\fuck\\s*public\\s*license\\b)", true, false⟩, none⟩
]

end Ohcount.Licenses
