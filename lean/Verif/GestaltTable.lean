import Verif.Gestalt
/-
Generated by tools/gen_gestalt.py from ruby/gestalt/*definitions.rb.  Do not edit.
-/

namespace Ohcount.Gestalt

/-- ruby/gestalt/definitions.rb:16-22. -/
def d00 : Definition := ⟨"platform", "posix", [
    .file { test := .cHeader ["pthread.h", "xstrtol.h", "xreadlink.h", "fatal-signal.h", "diacrit.h", "syslog.h", "sys/stat.h"] },
    .language "autoconf" 0]⟩

/-- ruby/gestalt/definitions.rb:24-27. -/
def d01 : Definition := ⟨"platform", "win32", [
    .file { test := .cHeader ["windows.h"] },
    .file { test := .cKeyword ["WM_PAINT", "ReleaseDC", "WndProc"], min := 2 }]⟩

/-- ruby/gestalt/definitions.rb:29-31. -/
def d02 : Definition := ⟨"platform", "visualbasic", [
    .language "visualbasic" 5]⟩

/-- ruby/gestalt/definitions.rb:33-35. -/
def d03 : Definition := ⟨"platform", "ruby", [
    .language "ruby" 15]⟩

/-- ruby/gestalt/definitions.rb:37-42. -/
def d04 : Definition := ⟨"platform", "rails", [
    .and [.gestalt "platform" "ruby", .file { test := .keyword (some "ruby") ["RAILS_ROOT"] }]]⟩

/-- ruby/gestalt/definitions.rb:44-46. -/
def d05 : Definition := ⟨"platform", "java", [
    .language "java" 15]⟩

/-- ruby/gestalt/definitions.rb:48-50. -/
def d06 : Definition := ⟨"platform", "javascript", [
    .language "javascript" 20]⟩

/-- ruby/gestalt/definitions.rb:52-54. -/
def d07 : Definition := ⟨"platform", "jquery", [
    .file { test := .filename ["jquery-\\d.\\d.\\d.min.js$"] }]⟩

/-- ruby/gestalt/definitions.rb:56-58. -/
def d08 : Definition := ⟨"platform", "mootools", [
    .file { test := .filename ["\\bmootools-\\d(\\.\\d)*(-core)?(-..)?\\.js$"] }]⟩

/-- ruby/gestalt/definitions.rb:60-62. -/
def d09 : Definition := ⟨"platform", "prototype", [
    .file { test := .filename ["\\bprototype(-\\d+(\\.\\d)+)?.js$"] }]⟩

/-- ruby/gestalt/definitions.rb:64-69. -/
def d10 : Definition := ⟨"platform", "yui", [
    .or [.file { test := .filename ["\\byahoo-min\\.js$"] }, .file { test := .keyword (some "html") ["\\byahoo-min\\.js\\b"] }]]⟩

/-- ruby/gestalt/definitions.rb:71-76. -/
def d11 : Definition := ⟨"platform", "dojo", [
    .or [.file { test := .filename ["\\bdojo\\.js$"] }, .file { test := .keyword (some "html") ["\\bdojo\\.xd\\.js\\b"] }]]⟩

/-- ruby/gestalt/definitions.rb:78-86. -/
def d12 : Definition := ⟨"platform", "flash", [
    .or [.language "actionscript" 1, .and [.gestalt "platform" "java", .file { test := .javaImport ⟨"^(flash)\\..+", false⟩ }]]]⟩

/-- ruby/gestalt/definitions.rb:88-96. -/
def d13 : Definition := ⟨"platform", "flex", [
    .or [.language "mxml" 1, .and [.gestalt "platform" "java", .file { test := .javaImport ⟨"^(mx)\\..+", false⟩ }]]]⟩

/-- ruby/gestalt/definitions.rb:98-100. -/
def d14 : Definition := ⟨"platform", "xwindows", [
    .file { test := .cHeader ["Xlib.h", "X11\\/xpm.h", "X11/Xlib.h"] }]⟩

/-- ruby/gestalt/definitions.rb:102-108. -/
def d15 : Definition := ⟨"platform", "mac", [
    .file { test := .cKeyword ["AppleEvent", "AEBuildAppleEvent"] },
    .file { test := .filename ["\\.plist"] }]⟩

/-- ruby/gestalt/definitions.rb:110-112. -/
def d16 : Definition := ⟨"platform", "php", [
    .language "php" 15]⟩

/-- ruby/gestalt/definitions.rb:114-116. -/
def d17 : Definition := ⟨"platform", "wxwidgets", [
    .file { test := .cHeader ["wx/window.h"] }]⟩

/-- ruby/gestalt/definitions.rb:118-123. -/
def d18 : Definition := ⟨"platform", "zendframework", [
    .and [.gestalt "platform" "php", .file { test := .keyword (some "php") ["Zend_Controller_Action"] }]]⟩

/-- ruby/gestalt/definitions.rb:125-130. -/
def d19 : Definition := ⟨"platform", "symfony", [
    .and [.gestalt "platform" "php", .file { test := .keyword (some "php") ["sfCore", "sfConfig"] }]]⟩

/-- ruby/gestalt/definitions.rb:132-140. -/
def d20 : Definition := ⟨"platform", "pear", [
    .and [.gestalt "platform" "php", .or [.file { test := .filename ["\\bpackage\\.xml(\\.tpl)?$"] }, .file { test := .keyword (some "xml") ["pear\\.php\\.net/dtd/package\\-2\\.0"] }]]]⟩

/-- ruby/gestalt/definitions.rb:142-147. -/
def d21 : Definition := ⟨"platform", "moodle", [
    .and [.gestalt "platform" "php", .file { test := .keyword (some "php") ["moodle"] }]]⟩

/-- ruby/gestalt/definitions.rb:149-151. -/
def d22 : Definition := ⟨"platform", "sql", [
    .language "sql" 0]⟩

/-- ruby/gestalt/definitions.rb:153-155. -/
def d23 : Definition := ⟨"platform", "mysql", [
    .file { test := .keyword (some "php") ["mysql_connect"] }]⟩

/-- ruby/gestalt/definitions.rb:157-159. -/
def d24 : Definition := ⟨"platform", "postgresql", [
    .file { test := .keyword (some "php") ["pg_connect"] }]⟩

/-- ruby/gestalt/definitions.rb:161-163. -/
def d25 : Definition := ⟨"platform", "python", [
    .language "python" 15]⟩

/-- ruby/gestalt/definitions.rb:165-167. -/
def d26 : Definition := ⟨"platform", "perl", [
    .language "perl" 20]⟩

/-- ruby/gestalt/definitions.rb:169-175. -/
def d27 : Definition := ⟨"platform", "scripting", [
    .gestalt "platform" "javascript",
    .gestalt "platform" "perl",
    .gestalt "platform" "php",
    .gestalt "platform" "python",
    .gestalt "platform" "ruby"]⟩

/-- ruby/gestalt/definitions.rb:177-182. -/
def d28 : Definition := ⟨"platform", "cakephp", [
    .and [.gestalt "platform" "php", .file { test := .keyword (some "php") ["CAKE_CORE_INCLUDE_PATH"] }]]⟩

/-- ruby/gestalt/definitions.rb:184-186. -/
def d29 : Definition := ⟨"platform", "kde", [
    .file { test := .cHeader ["KDEInit.h", "kdeversion.h"] }]⟩

/-- ruby/gestalt/definitions.rb:188-190. -/
def d30 : Definition := ⟨"platform", "gtk", [
    .file { test := .cKeyword ["gtk_init", "gtk_main", "gtk_window_new", "GtkWidget"] }]⟩

/-- ruby/gestalt/definitions.rb:192-201. -/
def d31 : Definition := ⟨"platform", "drupal", [
    .and [.gestalt "platform" "php", .or [.file { test := .keyword (some "php") ["drupal_set_message"] }, .file { test := .keyword (some "php") ["drupal_render"] }, .file { test := .keyword (some "php") ["Drupal"], min := 3 }]]]⟩

/-- ruby/gestalt/definitions.rb:203-205. -/
def d32 : Definition := ⟨"platform", "msdos", [
    .file { test := .cKeyword ["__MSDOS__", "MSDOS"], min := 2 }]⟩

/-- ruby/gestalt/definitions.rb:207-209. -/
def d33 : Definition := ⟨"platform", "eclipseplatform", [
    .file { test := .javaImport ⟨"org\\.eclipse\\.", false⟩ }]⟩

/-- ruby/gestalt/definitions.rb:214-216. -/
def d34 : Definition := ⟨"tool", "visualstudio", [
    .file { test := .filename ["\\.(sln|vcproj|vsproj|csproj|vbproj|vbp)$"] }]⟩

/-- ruby/gestalt/definitions.rb:218-220. -/
def d35 : Definition := ⟨"tool", "eclipse", [
    .file { test := .filename ["\\.(project|classpath)$"] }]⟩

/-- ruby/gestalt/definitions.rb:222-225. -/
def d36 : Definition := ⟨"tool", "netbeans", [
    .file { test := .filename ["\\bnbplatform\\b"] },
    .file { test := .filename ["\\.nbm$"] }]⟩

/-- ruby/gestalt/definitions.rb:229-237. -/
def d37 : Definition := ⟨"platform", "arm", [
    .file { test := .cHeader ["arm4.h", "arm3.h"] },
    .file { test := .cKeyword ["arm_int32_t", "arm_start_application", "__arm__"] },
    .file { test := .keyword (some "make") ["\\b\\-mabi\\b", "\\barmcc\\b"] },
    .file { test := .keyword (some "java") ["\\barm\\-eabi"] },
    .file { test := .keyword (some "assembler") ["\\bsmlal\\b", "\\bsmulw\\b", "\\borrs\\b"] },
    .gestalt "platform" "arm_neon",
    .file { test := .javaImport ⟨"org\\.opengroup\\.arm", false⟩ }]⟩

/-- ruby/gestalt/definitions.rb:241-244. -/
def d38 : Definition := ⟨"platform", "arm_neon", [
    .file { test := .keyword (some "assembler") ["\\bvld1\\.\\d\\d\\b", "\\bvld1\\.\\d\\d\\b", "\\bvmov\\b", "\\bvmov\\.u8\\b"] },
    .file { test := .keyword (some "make") ["\\bneon\\b", "\\bNEON\\b"] }]⟩

/-- ruby/gestalt/definitions.rb:249-251. -/
def d39 : Definition := ⟨"platform", "sse3_atom_flag", [
    .file { test := .keyword (some "make") ["SSE3_ATOM"] }]⟩

/-- ruby/gestalt/definitions.rb:253-255. -/
def d40 : Definition := ⟨"platform", "xl_flag", [
    .file { test := .keyword (some "make") ["\\bxL\\b", "\\/QxL\\b"] }]⟩

/-- ruby/gestalt/definitions.rb:257-260. -/
def d41 : Definition := ⟨"platform", "atom", [
    .gestalt "platform" "sse3_atom_flag",
    .gestalt "platform" "xl_flag"]⟩

/-- ruby/gestalt/definitions.rb:263-265. -/
def d42 : Definition := ⟨"platform", "intel_compiler", [
    .file { test := .keyword (some "make") ["\\bicc\\b"] }]⟩

/-- ruby/gestalt/definitions.rb:267-269. -/
def d43 : Definition := ⟨"platform", "gcc", [
    .file { test := .keyword (some "make") ["\\bgcc\\b"] }]⟩

/-- ruby/gestalt/definitions.rb:273-279. -/
def d44 : Definition := ⟨"platform", "clutter", [
    .file { test := .cKeyword ["ClutterActor", "\\bclutter_actor_", "ClutterStage", "ClutterBehavior", "clutter_main"] },
    .file { test := .keyword (some "csharp") ["ClutterActor", "\\bclutter_actor_", "ClutterStage", "ClutterBehavior", "clutter_main"] },
    .file { test := .keyword (some "perl") ["Clutter::Behavior", "Clutter::Actor", "Clutter::Stage"] },
    .file { test := .keyword (some "java") ["ClutterActor", "ClutterStage", "ClutterShader"] },
    .file { test := .keyword (some "ruby") ["Clutter::Actor", "Clutter::Stage", "Clutter::Shader", "Clutter::Cairo"] }]⟩

/-- ruby/gestalt/definitions.rb:281-285. -/
def d45 : Definition := ⟨"platform", "moblin_misc", [
    .file { test := .cKeyword ["\\\"org\\.moblin\\.", "MOBLIN_NETBOOK_SYSTEM_TRAY_H", "org_Moblin_", "\\\"org\\.Moblin\\.", "url=\"http://moblin.org\">http://moblin.org</ulink>"] },
    .file { test := .keyword (some "make") ["org.moblin.", "moblin-netbook"] },
    .file { test := .filename ["moblin-netbook-system-tray.h$"] }]⟩

/-- ruby/gestalt/definitions.rb:287-292. -/
def d46 : Definition := ⟨"platform", "nbtk", [
    .file { test := .cKeyword ["\\bnbtk_[a-z]+", "\\bNbtk[A-Z][a-z]+"] },
    .file { test := .keyword (some "java") ["\\bnbtk_[a-z]+", "\\bNbtk[A-Z][a-z]+"] },
    .file { test := .keyword (some "ruby") ["\\bnbtk_[a-z]+", "\\bNbtk[A-Z][a-z]+"] },
    .file { test := .filename ["nbtk\\/nbtk.h"] }]⟩

/-- ruby/gestalt/definitions.rb:294-298. -/
def d47 : Definition := ⟨"platform", "moblin", [
    .gestalt "platform" "clutter",
    .gestalt "platform" "moblin_misc",
    .gestalt "platform" "nbtk"]⟩

/-- ruby/gestalt/definitions.rb:302-304. -/
def d48 : Definition := ⟨"platform", "android", [
    .file { test := .javaImport ⟨"\\bandroid\\.", false⟩ }]⟩

/-- ruby/gestalt/definitions.rb:308-310. -/
def d49 : Definition := ⟨"platform", "iphone", [
    .file { test := .keyword (some "objective_c") ["\\bUIApplicationMain", "\\bUIWindow", "\\bUIView", "\\bUIResponder"] }]⟩

/-- ruby/gestalt/definitions.rb:314-321. -/
def d50 : Definition := ⟨"platform", "hildon", [
    .file { test := .cKeyword ["\\bHildonFile", "\\bhildon_file_", "\\bHildonProgram", "\\bHildonWindow", "\\bhildon_window"] },
    .file { test := .cHeader ["hildon/hildon.h"] },
    .and [.file { test := .keyword (some "python") ["\\bimport hildon"] }, .file { test := .keyword (some "python") ["\\bimport gtk"] }]]⟩

/-- ruby/gestalt/definitions.rb:322-324. -/
def d51 : Definition := ⟨"platform", "maemo", [
    .gestalt "platform" "hildon"]⟩

/-- ruby/gestalt/definitions.rb:326-333. -/
def d52 : Definition := ⟨"platform", "mid_combined", [
    .gestalt "platform" "clutter",
    .gestalt "platform" "nbtk",
    .gestalt "platform" "moblin",
    .gestalt "platform" "maemo",
    .gestalt "platform" "android",
    .gestalt "platform" "iphone"]⟩

/-- ruby/gestalt/definitions.rb:337-340. -/
def d53 : Definition := ⟨"platform", "windows_ce_incomplete", [
    .file { test := .keyword (some "csharp") ["Microsoft\\.WindowsCE", "Microsoft\\.WindowsMobile"] },
    .file { test := .keyword (some "vb") ["Microsoft\\.WindowsCE", "Microsoft\\.WindowsMobile"] }]⟩

/-- ruby/gestalt/definitions.rb:343-352. -/
def d54 : Definition := ⟨"platform", "native_code", [
    .language "c" 5,
    .language "cpp" 5,
    .language "cncpp" 5,
    .language "assembly" 5,
    .language "d" 5,
    .language "fortran" 5,
    .language "haskell" 5,
    .language "cobol" 5]⟩

/-- ruby/gestalt/dot_net_definitions.rb:4-11. -/
def d55 : Definition := ⟨"platform", "dot_net", [
    .or [.language "csharp" 10, .gestalt "platform" "asp_net", .gestalt "platform" "wpf", .gestalt "platform" "silverlight"]]⟩

/-- ruby/gestalt/dot_net_definitions.rb:13-15. -/
def d56 : Definition := ⟨"platform", "asp_net", [
    .file { test := .filename ["\\.(aspx|ascx|ashx|asax|axd)$"] }]⟩

/-- ruby/gestalt/dot_net_definitions.rb:17-19. -/
def d57 : Definition := ⟨"platform", "wpf", [
    .file { test := .filename ["\\.xaml$"] }]⟩

/-- ruby/gestalt/dot_net_definitions.rb:21-32. -/
def d58 : Definition := ⟨"platform", "silverlight", [
    .or [.file { test := .csharpUsing ⟨"^System.Web.Silverlight\\b", false⟩ }, .file { test := .keyword (some "html") ["\\basp:Silverlight\\b"] }, .file { test := .csproj ⟨"\\bSilverlight\\b", false⟩ }, .and [.gestalt "platform" "asp_net", .gestalt "platform" "wpf"]]]⟩

/-- ruby/gestalt/java_definitions.rb:6-14. -/
def d59 : Definition := ⟨"platform", "glassfish", [
    .and [.gestalt "platform" "java", .or [.file { test := .findFilenames ⟨"\\b(sun\\-web|sun\\-ejb\\-jar|sun\\-application(\\-client))\\.xml\\b", false⟩ 0 }, .file { test := .maven "dependency" ⟨"^org.glassfish\\b", false⟩ ⟨".*", false⟩ }]]]⟩

/-- ruby/gestalt/java_definitions.rb:16-24. -/
def d60 : Definition := ⟨"platform", "jboss", [
    .and [.gestalt "platform" "java", .or [.file { test := .findFilenames ⟨"\\bjboss(\\-app|cmp\\-jdbc|\\-web|\\-build|\\-client)\\.xml\\b", false⟩ 0 }, .file { test := .maven "dependency" ⟨"^org.jboss\\b", false⟩ ⟨".*", false⟩ }]]]⟩

/-- ruby/gestalt/java_definitions.rb:26-34. -/
def d61 : Definition := ⟨"platform", "weblogic", [
    .and [.gestalt "platform" "java", .or [.file { test := .findFilenames ⟨"\\bweblogic(\\-ejb\\-jar|\\-ra|\\-application|\\-cmp\\-rdbms\\jar)\\.xml\\b", false⟩ 0 }, .file { test := .maven "plugin" ⟨"^org\\.codehaus\\.mojo\\b", false⟩ ⟨"^weblogic\\-maven\\-plugin\\b", false⟩ }]]]⟩

/-- ruby/gestalt/java_definitions.rb:36-41. -/
def d62 : Definition := ⟨"platform", "jonas", [
    .and [.gestalt "platform" "java", .file { test := .findFilenames ⟨"\\bjonas\\-ejb\\-jar\\.xml\\b", false⟩ 0 }]]⟩

/-- ruby/gestalt/java_definitions.rb:43-48. -/
def d63 : Definition := ⟨"platform", "websphere", [
    .and [.gestalt "platform" "java", .file { test := .findFilenames ⟨"\\bibm\\-(application|web|webservices|webservicesclient)\\-.+\\.xmi$", false⟩ 0 }]]⟩

/-- ruby/gestalt/java_definitions.rb:50-58. -/
def d64 : Definition := ⟨"platform", "tomcat", [
    .and [.gestalt "platform" "java", .or [.file { test := .javaImport ⟨"^org\\.apache\\.tomcat\\b", false⟩ }, .file { test := .maven "dependency" ⟨"^org\\.apache\\.tomcat\\b", false⟩ ⟨".*", false⟩ }]]]⟩

/-- ruby/gestalt/java_definitions.rb:60-69. -/
def d65 : Definition := ⟨"platform", "appserver", [
    .or [.gestalt "platform" "glassfish", .gestalt "platform" "jboss", .gestalt "platform" "weblogic", .gestalt "platform" "tomcat", .gestalt "platform" "jonas", .gestalt "platform" "websphere"]]⟩

/-- ruby/gestalt/java_definitions.rb:71-79. -/
def d66 : Definition := ⟨"platform", "ejb2", [
    .and [.gestalt "platform" "java", .or [.file { test := .findFilenames ⟨"(.+\\-)ejb\\-jar\\.xml\\b", false⟩ 0 }, .file { test := .keyword (some "java") ["EJBHome", "EJBRemote", "SessionBean"] }]]]⟩

/-- ruby/gestalt/java_definitions.rb:85-94. -/
def d67 : Definition := ⟨"platform", "ejb3.1", [
    .and [.gestalt "platform" "java", .or [.file { test := .keyword (some "java") ["@Schedule", "@Singleton", "@Asynchronous"] }, .file { test := .keyword (some "java") ["(?-mix:@EJB\\(.*\\bmappedName\\s*=\\s*\"java:(global|app|module)/.+\".*\\))"] }, .file { test := .keyword (some "java") ["(?-mix:\\blookup\\(\\s*\"java:(global|app|module)/.+\"\\s*\\))"] }]]]⟩

/-- ruby/gestalt/java_definitions.rb:96-105. -/
def d68 : Definition := ⟨"platform", "ejb3+", [
    .and [.gestalt "platform" "java", .or [.gestalt "platform" "ejb3.1", .file { test := .keyword (some "java") ["@EJB", "@Stateless", "@Statefull", "@Entity", "@Remote", "@Local", "@BusinessMethod"] }, .file { test := .javaImport ⟨"^javax\\.persistence\\b", false⟩ }]]]⟩

/-- ruby/gestalt/java_definitions.rb:107-112. -/
def d69 : Definition := ⟨"platform", "ejb3.0", [
    .and [.gestalt "platform" "ejb3+", .not [.gestalt "platform" "ejb3.1"]]]⟩

/-- ruby/gestalt/java_definitions.rb:114-122. -/
def d70 : Definition := ⟨"platform", "servlet", [
    .and [.gestalt "platform" "java", .or [.file { test := .javaImport ⟨"^javax\\.servlet\\b", false⟩ }, .file { test := .maven "dependency" ⟨"^javax\\.servlet\\b", false⟩ ⟨".*", false⟩ }]]]⟩

/-- ruby/gestalt/java_definitions.rb:124-133. -/
def d71 : Definition := ⟨"platform", "struts", [
    .and [.gestalt "platform" "java", .or [.file { test := .filename ["\\bstruts(\\-config)?\\.xml$", "\\bstruts\\.jar$"] }, .file { test := .javaImport ⟨"^org\\.apache\\.struts\\b", false⟩ }, .file { test := .maven "dependency" ⟨"^org\\.apache\\.struts\\b", false⟩ ⟨".*", false⟩ }]]]⟩

/-- ruby/gestalt/java_definitions.rb:135-144. -/
def d72 : Definition := ⟨"platform", "springframework", [
    .and [.gestalt "platform" "java", .or [.file { test := .filename ["spring\\.jar$"] }, .file { test := .javaImport ⟨"^org\\.springframework\\b", false⟩ }, .file { test := .maven "dependency" ⟨"^org\\.springframework\\b", false⟩ ⟨".*", false⟩ }]]]⟩

/-- ruby/gestalt/java_definitions.rb:146-154. -/
def d73 : Definition := ⟨"platform", "jsf", [
    .and [.gestalt "platform" "java", .or [.file { test := .javaImport ⟨"^javax\\.faces\\b", false⟩ }, .file { test := .maven "dependency" ⟨"^javax\\.faces\\b", false⟩ ⟨".*", false⟩ }]]]⟩

/-- ruby/gestalt/java_definitions.rb:156-161. -/
def d74 : Definition := ⟨"platform", "googlewebtoolkit", [
    .and [.gestalt "platform" "java", .file { test := .javaImport ⟨"^com\\.google\\.gwt\\b", false⟩ }]]⟩

/-- ruby/gestalt/java_definitions.rb:165-174. -/
def d75 : Definition := ⟨"platform", "hibernate", [
    .and [.gestalt "platform" "java", .or [.file { test := .filename ["\\bhibernate\\d\\.jar$"] }, .file { test := .javaImport ⟨"^org\\.hibernate\\b", false⟩ }, .file { test := .maven "dependency" ⟨"^org\\.hibernate$", false⟩ ⟨".*", false⟩ }]]]⟩

/-- ruby/gestalt/java_definitions.rb:176-181. -/
def d76 : Definition := ⟨"platform", "jpa", [
    .and [.gestalt "platform" "java", .file { test := .javaImport ⟨"^javax\\.persistence\\b", false⟩ }]]⟩

/-- ruby/gestalt/java_definitions.rb:183-188. -/
def d77 : Definition := ⟨"platform", "toplink", [
    .and [.gestalt "platform" "java", .file { test := .javaImport ⟨"^oracle\\.toplink\\b", false⟩ }]]⟩

/-- ruby/gestalt/java_definitions.rb:190-195. -/
def d78 : Definition := ⟨"platform", "castor", [
    .and [.gestalt "platform" "java", .file { test := .javaImport ⟨"^org\\.exolab\\.castor\\b", false⟩ }]]⟩

/-- ruby/gestalt/java_definitions.rb:197-202. -/
def d79 : Definition := ⟨"platform", "db4o", [
    .and [.gestalt "platform" "java", .file { test := .javaImport ⟨"^com\\.db4o\\b", false⟩ }]]⟩

/-- ruby/gestalt/java_definitions.rb:206-211. -/
def d80 : Definition := ⟨"platform", "openesb", [
    .and [.gestalt "platform" "java", .file { test := .javaImport ⟨"^org\\.openesb\\b", false⟩ }]]⟩

/-- ruby/gestalt/java_definitions.rb:213-218. -/
def d81 : Definition := ⟨"platform", "muleesb", [
    .and [.gestalt "platform" "java", .file { test := .javaImport ⟨"^org\\.mule\\b", false⟩ }]]⟩

/-- ruby/gestalt/java_definitions.rb:220-228. -/
def d82 : Definition := ⟨"platform", "servicemix", [
    .and [.gestalt "platform" "java", .or [.file { test := .javaImport ⟨"^org\\.apache\\.servicemix\\b", false⟩ }, .file { test := .maven "dependency" ⟨"^org.apache.servicemix\\b", false⟩ ⟨".*", false⟩ }]]]⟩

/-- ruby/gestalt/java_definitions.rb:230-235. -/
def d83 : Definition := ⟨"platform", "jbossesb", [
    .and [.gestalt "platform" "java", .file { test := .javaImport ⟨"^org\\.jboss\\.soa\\.esb\\b", false⟩ }]]⟩

/-- ruby/gestalt/java_definitions.rb:237-242. -/
def d84 : Definition := ⟨"platform", "openesb", [
    .and [.gestalt "platform" "java", .file { test := .javaImport ⟨"^org\\.openesb\\b", false⟩ }]]⟩

/-- ruby/gestalt/java_definitions.rb:246-254. -/
def d85 : Definition := ⟨"platform", "opensso", [
    .and [.gestalt "platform" "java", .or [.file { test := .filename ["\\bopensso\\.war$"] }, .file { test := .javaImport ⟨"^com\\.sun\\.identity\\.(authentication|agents)\\b", false⟩ }]]]⟩

/-- ruby/gestalt/java_definitions.rb:256-261. -/
def d86 : Definition := ⟨"platform", "maven", [
    .and [.gestalt "platform" "java", .file { test := .findFilenames ⟨"\\bpom\\.xml$", false⟩ 0 }]]⟩

/-- ruby/gestalt/jasper_definitions.rb:4-12. -/
def d87 : Definition := ⟨"platform", "jaspersoft", [
    .or [.gestalt "platform" "jaspersoft_keyword", .gestalt "platform" "jasper_reports", .gestalt "platform" "jasper_server", .gestalt "platform" "jasper_ireport", .gestalt "platform" "jasper_intelligence"]]⟩

/-- ruby/gestalt/jasper_definitions.rb:14-16. -/
def d88 : Definition := ⟨"platform", "jaspersoft_keyword", [
    .file { test := .keyword none ["(?i-mx:jaspersoft)"] }]⟩

/-- ruby/gestalt/jasper_definitions.rb:18-23. -/
def d89 : Definition := ⟨"platform", "jasper_reports", [
    .or [.gestalt "platform" "jasper_reports_keyword", .gestalt "platform" "jasper_reports_java"]]⟩

/-- ruby/gestalt/jasper_definitions.rb:25-27. -/
def d90 : Definition := ⟨"platform", "jasper_reports_keyword", [
    .file { test := .keyword none ["(?i-mx:jasper[ _-]?reports?)"] }]⟩

/-- ruby/gestalt/jasper_definitions.rb:29-34. -/
def d91 : Definition := ⟨"platform", "jasper_reports_java", [
    .or [.file { test := .maven "dependency" ⟨"jasperreports", false⟩ ⟨".*", false⟩ }, .file { test := .keyword (some "java") ["\\bnet\\.sf\\.jasperreports\\b"] }]]⟩

/-- ruby/gestalt/jasper_definitions.rb:36-41. -/
def d92 : Definition := ⟨"platform", "jasper_server", [
    .or [.gestalt "platform" "jasper_server_keyword", .gestalt "platform" "jasper_server_java"]]⟩

/-- ruby/gestalt/jasper_definitions.rb:43-45. -/
def d93 : Definition := ⟨"platform", "jasper_server_keyword", [
    .file { test := .keyword none ["(?i-mx:jasper[ _-]?server)"] }]⟩

/-- ruby/gestalt/jasper_definitions.rb:47-49. -/
def d94 : Definition := ⟨"platform", "jasper_server_java", [
    .file { test := .keyword (some "java") ["\\bcom\\.jaspersoft\\.jasperserver\\b"] }]⟩

/-- ruby/gestalt/jasper_definitions.rb:51-53. -/
def d95 : Definition := ⟨"platform", "jasper_intelligence", [
    .file { test := .keyword (some "java") ["\\bcom\\.jaspersoft\\.ji"] }]⟩

/-- ruby/gestalt/jasper_definitions.rb:55-60. -/
def d96 : Definition := ⟨"platform", "jasper_ireport", [
    .and [.file { test := .keyword none ["(?i-mx:jasper)"] }, .file { test := .keyword none ["(?i-mx:ireport)"] }]]⟩

/-- `Definition.all_definitions`, in the order in which ruby/gestalt.rb:11-14 loads them. -/
def shipped : List Definition := [d00, d01, d02, d03, d04, d05, d06, d07, d08, d09, d10, d11, d12, d13, d14, d15, d16, d17, d18, d19, d20, d21, d22, d23, d24, d25, d26, d27, d28, d29, d30, d31, d32, d33, d34, d35, d36, d37, d38, d39, d40, d41, d42, d43, d44, d45, d46, d47, d48, d49, d50, d51, d52, d53, d54, d55, d56, d57, d58, d59, d60, d61, d62, d63, d64, d65, d66, d67, d68, d69, d70, d71, d72, d73, d74, d75, d76, d77, d78, d79, d80, d81, d82, d83, d84, d85, d86, d87, d88, d89, d90, d91, d92, d93, d94, d95, d96]

end Ohcount.Gestalt
