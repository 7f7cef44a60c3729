import Verif.Cert.ER1
import Verif.Cert.ER2
import Verif.Cert.ER3
import Verif.EmbedEnclose
import Verif.EmbedPages
import Verif.LexisProps

/-!
C67: the lines of a style sheet, a script or a piece of code in a page are those that the parser of the language reports for the text alone.
-/

namespace Ohcount.Ragel

open Cert Gram

/-- A line that opens a region in another language and a line that closes it, in pages that `page` parses.  The text between them belongs to
language number `lang` of the page and must not contain any of `stops`; `mach` is the scanner that reads it. -/
structure Block where
  page : EParser
  opens : List Byte
  closes : List Byte
  sub : Parser
  lang : Nat
  stops : List (List Byte)
  mach : Nat

def exitsOf (stops : List (List Byte)) : Exits :=
  ⟨stops.filterMap fun s => match s with | [x] => some x.toNat | _ => none, stops.filterMap fun s => match s with | [x, y] => some (x.toNat, y.toNat) | _ => none⟩

def styleOpen := bytes "<style type=\"text/css\">\n"
def styleClose := bytes "</style>\n"
def scriptOpen := bytes "<script type=\"text/javascript\">\n"
def scriptClose := bytes "</script>\n"
def serverOpen := bytes "<script runat=\"server\">\n"

/-- The regions: src/parsers/html.rl:66-92, mxml.rl, jsp.rl, phtml.rl, clearsilverhtml.rl, cs_aspx.rl, rhtml.rl, vb_aspx.rl (`_css_entry`,
`_js_entry` and the entry of the language of the page), nix.rl:64-75. -/
def blocks : List Block := [
  ⟨Emb.Html.parser, styleOpen, styleClose, parse_css, 1, [bytes "</"], 0⟩,
  ⟨Emb.Html.parser, scriptOpen, scriptClose, parse_javascript, 2, [bytes "</"], 1⟩,
  ⟨Emb.Mxml.parser, bytes "<mx:Style>\n", bytes "</mx:Style>\n", parse_css, 1, [bytes "</"], 0⟩,
  ⟨Emb.Mxml.parser, bytes "<mx:Script>\n", bytes "</mx:Script>\n", parse_actionscript, 2, [bytes "</"], 1⟩,
  ⟨Emb.Jsp.parser, styleOpen, styleClose, parse_css, 1, [bytes "</"], 3⟩,
  ⟨Emb.Jsp.parser, scriptOpen, scriptClose, parse_javascript, 2, [bytes "</"], 4⟩,
  ⟨Emb.Jsp.parser, bytes "<%\n", bytes "%>\n", parse_java, 3, [bytes "%>"], 5⟩,
  ⟨Emb.Phphtml.parser, styleOpen, styleClose, parse_css, 1, [bytes "</"], 3⟩,
  ⟨Emb.Phphtml.parser, scriptOpen, scriptClose, parse_javascript, 2, [bytes "</"], 4⟩,
  ⟨Emb.Clearsilverhtml.parser, styleOpen, styleClose, parse_css, 1, [bytes "</"], 3⟩,
  ⟨Emb.Clearsilverhtml.parser, scriptOpen, scriptClose, parse_javascript, 2, [bytes "</"], 4⟩,
  ⟨Emb.Clearsilverhtml.parser, bytes "<?cs\n", bytes "?>\n", parse_clearsilver, 3, [bytes "?>"], 5⟩,
  ⟨Emb.CsAspx.parser, styleOpen, styleClose, parse_css, 1, [bytes "</"], 3⟩,
  ⟨Emb.CsAspx.parser, scriptOpen, scriptClose, parse_javascript, 2, [bytes "</"], 4⟩,
  ⟨Emb.CsAspx.parser, serverOpen, scriptClose, parse_csharp, 3, [bytes "%>", bytes "</"], 5⟩,
  ⟨Emb.Rhtml.parser, styleOpen, styleClose, parse_css, 1, [bytes "</"], 3⟩,
  ⟨Emb.Rhtml.parser, scriptOpen, scriptClose, parse_javascript, 2, [bytes "</"], 4⟩,
  ⟨Emb.VbAspx.parser, styleOpen, styleClose, parse_css, 1, [bytes "</"], 3⟩,
  ⟨Emb.VbAspx.parser, scriptOpen, scriptClose, parse_javascript, 2, [bytes "</"], 4⟩,
  ⟨Emb.VbAspx.parser, serverOpen, scriptClose, parse_visual_basic, 3, [bytes "%>", bytes "</"], 5⟩,
  ⟨Emb.Nix.parser, bytes "preConfigure = \"\n", bytes "\";\n", parse_shell, 1, [bytes "\""], 0⟩]

/-- The languages are called alike in the page and by themselves. -/
example : blocks.all (fun B => B.page.langs[B.lang]? == some B.sub.lang) = true := by decide +kernel

/-- The text is read as complete lines of the language, and nothing in it looks like the end of the region. -/
structure Block.Holds (B : Block) (W : List Byte) : Prop where
  settled : B.sub.line.machine.settled W = true
  free : ∀ s ∈ B.stops, ¬ s <:+: W

theorem infix_pair {W : List Byte} {i : Nat} {x y : Byte} (hx : W[i]? = some x) (hy : W[i + 1]? = some y) : [x, y] <:+: W := by
  refine ⟨W.take i, W.drop (i + 2), ?_⟩
  obtain ⟨h1, e1⟩ := List.getElem?_eq_some_iff.mp hx
  obtain ⟨h2, e2⟩ := List.getElem?_eq_some_iff.mp hy
  have e3 : W.drop i = x :: y :: W.drop (i + 2) := by
    rw [List.drop_eq_getElem_cons h1, e1, List.drop_eq_getElem_cons h2, e2]
  rw [List.append_assoc]
  show W.take i ++ x :: y :: W.drop (i + 2) = W
  rw [← e3, List.take_append_drop]

theorem free_of {stops : List (List Byte)} {W : List Byte} (h : ∀ s ∈ stops, ¬ s <:+: W) : (exitsOf stops).Free W := by
  constructor
  · intro x hx hm
    unfold exitsOf at hm
    dsimp only at hm
    rw [List.mem_filterMap] at hm
    obtain ⟨s, hs, e⟩ := hm
    split at e
    · rename_i z
      have : z = x := UInt8.toNat_inj.mp (Option.some.inj e)
      subst this
      obtain ⟨a, b, e⟩ := List.append_of_mem hx
      exact h _ hs ⟨a, b, by rw [e]; simp⟩
    · cases e
  · intro i x y hx hy hm
    unfold exitsOf at hm
    dsimp only at hm
    rw [List.mem_filterMap] at hm
    obtain ⟨s, hs, e⟩ := hm
    split at e
    · rename_i u v
      have := Option.some.inj e
      rw [Prod.mk.injEq] at this
      have e1 : u = x := UInt8.toNat_inj.mp this.1
      have e2 : v = y := UInt8.toNat_inj.mp this.2
      subst e1; subst e2
      exact h _ hs (infix_pair hx hy)
    · cases e

/-- What has to be known about a region. -/
structure Block.Known (B : Block) : Prop where
  shift : Shiftable B.page B.page.line
  chk : Checked B.page B.page.line false false
  cert : Nonempty (RegCert B.sub.line.machine B.page.multi B.mach B.lang (exitsOf B.stops))
  enc : B.page.enclose B.mach B.lang B.opens B.closes = some ([⟨0, .lcode, 0, B.opens.length⟩], [⟨0, .lcode, 0, B.closes.length⟩])

theorem known {B : Block} (hP : B.page ∈ embShiftLine) (C : RegCert B.sub.line.machine B.page.multi B.mach B.lang (exitsOf B.stops))
    (he : B.page.enclose B.mach B.lang B.opens B.closes = some ([⟨0, .lcode, 0, B.opens.length⟩], [⟨0, .lcode, 0, B.closes.length⟩])) : B.Known :=
  ⟨embShiftLineAll _ hP, embLineAll _ (embShiftLine_parsers _ hP), ⟨C⟩, he⟩

theorem blocks_known : ∀ B ∈ blocks, B.Known := by
  unfold blocks
  refine List.forall_mem_cons.mpr ⟨known (by simp [embShiftLine]) html_reg0 (by unfold EParser.enclose; rw [html_M_eq]; decide +kernel), ?_⟩
  refine List.forall_mem_cons.mpr ⟨known (by simp [embShiftLine]) html_reg1 (by unfold EParser.enclose; rw [html_M_eq]; decide +kernel), ?_⟩
  refine List.forall_mem_cons.mpr ⟨known (by simp [embShiftLine]) mxml_reg0 (by unfold EParser.enclose; rw [mxml_M_eq]; decide +kernel), ?_⟩
  refine List.forall_mem_cons.mpr ⟨known (by simp [embShiftLine]) mxml_reg1 (by unfold EParser.enclose; rw [mxml_M_eq]; decide +kernel), ?_⟩
  refine List.forall_mem_cons.mpr ⟨known (by simp [embShiftLine]) jsp_reg3 (by unfold EParser.enclose; rw [jsp_M_eq]; decide +kernel), ?_⟩
  refine List.forall_mem_cons.mpr ⟨known (by simp [embShiftLine]) jsp_reg4 (by unfold EParser.enclose; rw [jsp_M_eq]; decide +kernel), ?_⟩
  refine List.forall_mem_cons.mpr ⟨known (by simp [embShiftLine]) jsp_reg5 (by unfold EParser.enclose; rw [jsp_M_eq]; decide +kernel), ?_⟩
  refine List.forall_mem_cons.mpr ⟨known (by simp [embShiftLine]) phphtml_reg3 (by unfold EParser.enclose; rw [phphtml_M_eq]; decide +kernel), ?_⟩
  refine List.forall_mem_cons.mpr ⟨known (by simp [embShiftLine]) phphtml_reg4 (by unfold EParser.enclose; rw [phphtml_M_eq]; decide +kernel), ?_⟩
  refine List.forall_mem_cons.mpr ⟨known (by simp [embShiftLine]) clearsilverhtml_reg3 (by unfold EParser.enclose; rw [clearsilverhtml_M_eq]; decide +kernel), ?_⟩
  refine List.forall_mem_cons.mpr ⟨known (by simp [embShiftLine]) clearsilverhtml_reg4 (by unfold EParser.enclose; rw [clearsilverhtml_M_eq]; decide +kernel), ?_⟩
  refine List.forall_mem_cons.mpr ⟨known (by simp [embShiftLine]) clearsilverhtml_reg5 (by unfold EParser.enclose; rw [clearsilverhtml_M_eq]; decide +kernel), ?_⟩
  refine List.forall_mem_cons.mpr ⟨known (by simp [embShiftLine]) csAspx_reg3 (by unfold EParser.enclose; rw [csAspx_M_eq]; decide +kernel), ?_⟩
  refine List.forall_mem_cons.mpr ⟨known (by simp [embShiftLine]) csAspx_reg4 (by unfold EParser.enclose; rw [csAspx_M_eq]; decide +kernel), ?_⟩
  refine List.forall_mem_cons.mpr ⟨known (by simp [embShiftLine]) csAspx_reg5 (by unfold EParser.enclose; rw [csAspx_M_eq]; decide +kernel), ?_⟩
  refine List.forall_mem_cons.mpr ⟨known (by simp [embShiftLine]) rhtml_reg3 (by unfold EParser.enclose; rw [rhtml_M_eq]; decide +kernel), ?_⟩
  refine List.forall_mem_cons.mpr ⟨known (by simp [embShiftLine]) rhtml_reg4 (by unfold EParser.enclose; rw [rhtml_M_eq]; decide +kernel), ?_⟩
  refine List.forall_mem_cons.mpr ⟨known (by simp [embShiftLine]) vbAspx_reg3 (by unfold EParser.enclose; rw [vbAspx_M_eq]; decide +kernel), ?_⟩
  refine List.forall_mem_cons.mpr ⟨known (by simp [embShiftLine]) vbAspx_reg4 (by unfold EParser.enclose; rw [vbAspx_M_eq]; decide +kernel), ?_⟩
  refine List.forall_mem_cons.mpr ⟨known (by simp [embShiftLine]) vbAspx_reg5 (by unfold EParser.enclose; rw [vbAspx_M_eq]; decide +kernel), ?_⟩
  refine List.forall_mem_cons.mpr ⟨known (by simp [embShiftLine]) nix_reg0 (by unfold EParser.enclose; rw [nix_M_eq]; decide +kernel), ?_⟩
  exact fun _ h => nomatch h

/-- The languages of the regions have parsers of their own. -/
theorem blocks_sub : ∀ B ∈ blocks, B.sub ∈ parsers :=
  (List.forall_mem_cons.mpr ⟨List.mem_of_getElem? (i := 26) rfl,
  (List.forall_mem_cons.mpr ⟨List.mem_of_getElem? (i := 50) rfl,
  (List.forall_mem_cons.mpr ⟨List.mem_of_getElem? (i := 26) rfl,
  (List.forall_mem_cons.mpr ⟨List.mem_of_getElem? (i := 0) rfl,
  (List.forall_mem_cons.mpr ⟨List.mem_of_getElem? (i := 26) rfl,
  (List.forall_mem_cons.mpr ⟨List.mem_of_getElem? (i := 50) rfl,
  (List.forall_mem_cons.mpr ⟨List.mem_of_getElem? (i := 49) rfl,
  (List.forall_mem_cons.mpr ⟨List.mem_of_getElem? (i := 26) rfl,
  (List.forall_mem_cons.mpr ⟨List.mem_of_getElem? (i := 50) rfl,
  (List.forall_mem_cons.mpr ⟨List.mem_of_getElem? (i := 26) rfl,
  (List.forall_mem_cons.mpr ⟨List.mem_of_getElem? (i := 50) rfl,
  (List.forall_mem_cons.mpr ⟨List.mem_of_getElem? (i := 22) rfl,
  (List.forall_mem_cons.mpr ⟨List.mem_of_getElem? (i := 26) rfl,
  (List.forall_mem_cons.mpr ⟨List.mem_of_getElem? (i := 50) rfl,
  (List.forall_mem_cons.mpr ⟨List.mem_of_getElem? (i := 15) rfl,
  (List.forall_mem_cons.mpr ⟨List.mem_of_getElem? (i := 26) rfl,
  (List.forall_mem_cons.mpr ⟨List.mem_of_getElem? (i := 50) rfl,
  (List.forall_mem_cons.mpr ⟨List.mem_of_getElem? (i := 26) rfl,
  (List.forall_mem_cons.mpr ⟨List.mem_of_getElem? (i := 50) rfl,
  (List.forall_mem_cons.mpr ⟨List.mem_of_getElem? (i := 106) rfl,
  (List.forall_mem_cons.mpr ⟨List.mem_of_getElem? (i := 93) rfl,
  (fun _ h => nomatch h)⟩)⟩)⟩)⟩)⟩)⟩)⟩)⟩)⟩)⟩)⟩)⟩)⟩)⟩)⟩)⟩)⟩)⟩)⟩)⟩)⟩)

/-- The text of a region with the lines around it. -/
def Block.text (B : Block) (W : List Byte) : List Byte := B.opens ++ W ++ B.closes

/-- The callbacks for a region: the opening line is code of the page, the lines inside are those that the parser of the language reports,
and the closing line is code of the page. -/
def Block.reports (B : Block) (W : List Byte) : List ERep :=
  [⟨0, .lcode, 0, B.opens.length⟩] ++
  ((lineReports B.sub.line.machine {} W).map fun r => ⟨B.lang, r.kind, r.s + B.opens.length, r.e + B.opens.length⟩) ++
  [⟨0, .lcode, B.opens.length + W.length, (B.text W).length⟩]

theorem Block.lines {B : Block} (hB : B ∈ blocks) {W : List Byte} (hW : B.Holds W) : Lines B.page (B.text W) (B.reports W) false := by
  have K := blocks_known B hB
  obtain ⟨C⟩ := K.cert
  have := enclose_lines K.shift C K.enc hW.settled (free_of hW.free) (C33_no_null B.sub (blocks_sub B hB) {} W)
  unfold Block.text Block.reports
  rw [show (B.text W).length = B.closes.length + (B.opens.length + W.length) by unfold Block.text; simp only [List.length_append]; omega]
  simpa only [List.map_cons, List.map_nil, ERep.sh, Nat.zero_add] using this

/-- A region at the beginning of a page or of the rest of a page. -/
theorem C67_region (B : Block) (hB : B ∈ blocks) (l l' : ELeft) (W : List Byte) (hW : B.Holds W) (X : List Byte) :
    B.page.reports l (B.text W ++ X) = B.reports W ++ (B.page.reports l' X).map (ERep.sh (B.text W).length) :=
  (Lines.reports (blocks_known B hB).shift (blocks_known B hB).chk (Block.lines hB hW) l l' X).1

/-- A region after complete lines of the page. -/
theorem C67_in_page (B : Block) (hB : B ∈ blocks) (l : ELeft) (T : List Byte) (hT : B.page.whole T = true) (W : List Byte) (hW : B.Holds W)
    (X : List Byte) : B.page.reports l (T ++ B.text W ++ X) =
      B.page.reports l T ++ (B.reports W).map (ERep.sh T.length) ++ (B.page.reports l X).map (ERep.sh (T ++ B.text W).length) := by
  have K := blocks_known B hB
  rw [List.append_assoc, reports_append K.shift K.chk hT l l, C67_region B hB l l W hW X, List.map_append, ERep.sh_sh, List.length_append,
    List.append_assoc]

/-- The kinds of the lines inside are the ones of the specification of the language (C55). -/
theorem C67_kinds (B : Block) (L : Lexis) (hB : B ∈ blocks) (hL : (B.sub, L) ∈ classified) (l : ELeft) (W : List Byte) (hW : B.Holds W)
    (hp : Plain W) (hw : L.WellFormed W) :
    (B.page.reports l (B.text W)).map (fun r => (r.lang, r.kind)) =
      (0, .lcode) :: ((L.lines W).map fun x => (B.lang, x.2.2)) ++ [(0, .lcode)] := by
  have h := C67_region B hB l l W hW []
  rw [List.append_nil, reports_nil, List.map_nil, List.append_nil] at h
  have k := (C55_kinds B.sub L hL {} W hp hw).kinds
  rw [h]
  unfold Block.reports
  rw [List.map_append, List.map_append, List.map_map, List.cons_append]
  show (0, Kind.lcode) :: (List.map _ _ ++ _) = _
  congr 2
  have : (L.lines W).map (fun x => (B.lang, x.2.2)) = ((L.lines W).map (·.2.2)).map fun k => (B.lang, k) := by rw [List.map_map]; rfl
  rw [this, ← k, List.map_map]
  rfl

/-! ### Whole pages -/

/-- A piece of a page: complete lines of the page itself, or a region. -/
inductive Piece where
  | plain (T : List Byte)
  | region (B : Block) (W : List Byte)

def Piece.text : Piece → List Byte
  | .plain T => T
  | .region B W => B.text W

/-- The callbacks for a piece by itself. -/
def Piece.reports (P : EParser) : Piece → List ERep
  | .plain T => P.reports {} T
  | .region B W => B.reports W

def Piece.Fits (P : EParser) : Piece → Prop
  | .plain T => P.whole T = true
  | .region B W => B ∈ blocks ∧ B.page = P ∧ B.Holds W

/-- The callbacks of the pieces, each at its place. -/
def pieceReports (P : EParser) : Nat → List Piece → List ERep
  | _, [] => []
  | k, x :: xs => (x.reports P).map (ERep.sh k) ++ pieceReports P (k + x.text.length) xs

theorem pieceReports_sh (P : EParser) (j : Nat) : ∀ (xs : List Piece) (k : Nat), (pieceReports P k xs).map (ERep.sh j) = pieceReports P (j + k) xs
  | [], _ => rfl
  | x :: xs, k => by
    unfold pieceReports
    rw [List.map_append, ERep.sh_sh, pieceReports_sh P j xs, Nat.add_assoc]

theorem ERep.sh_zero (l : List ERep) : l.map (ERep.sh 0) = l := by
  conv => rhs; rw [← List.map_id l]
  exact List.map_congr_left fun _ _ => rfl

/-- A page that consists of complete lines and regions, followed by any text: the callbacks are those of the pieces, in order. -/
theorem C67_page (P : EParser) (hP : P ∈ embShiftLine) (l : ELeft) (X : List Byte) : ∀ (xs : List Piece), (∀ x ∈ xs, x.Fits P) →
    P.reports l ((xs.map Piece.text).flatten ++ X) =
      pieceReports P 0 xs ++ (P.reports l X).map (ERep.sh (xs.map Piece.text).flatten.length)
  | [], _ => by
    simp only [List.map_nil, List.flatten_nil, List.nil_append, List.length_nil, ERep.sh_zero]
    rfl
  | x :: xs, h => by
    have ih := C67_page P hP l X xs fun y hy => h y (List.mem_cons_of_mem _ hy)
    have hx := h x (List.mem_cons_self ..)
    have key : ∀ Y, P.reports l (x.text ++ Y) = x.reports P ++ (P.reports l Y).map (ERep.sh x.text.length) := by
      intro Y
      cases x with
      | plain T => rw [show Piece.text (.plain T) = T from rfl, C65_two_parts P hP l l hx Y, reports_same P {} l T]; rfl
      | region B W =>
        obtain ⟨h1, h2, h3⟩ := hx
        subst h2
        exact C67_region B h1 l l W h3 Y
    rw [List.map_cons, List.flatten_cons, List.append_assoc, key, ih, List.map_append, ERep.sh_sh, pieceReports_sh, List.length_append,
      ← List.append_assoc]
    congr 1
    show _ = (x.reports P).map (ERep.sh 0) ++ pieceReports P (0 + x.text.length) xs
    rw [ERep.sh_zero, Nat.zero_add, Nat.add_zero]

/-- So the numbers of lines are the sums over the pieces. -/
theorem C67_counts (P : EParser) (hP : P ∈ embShiftLine) (l : ELeft) (xs : List Piece) (h : ∀ x ∈ xs, x.Fits P) (lang : Nat) (kind : Kind) :
    (P.reports l (xs.map Piece.text).flatten).countP (fun r => r.lang == lang && r.kind == kind) =
      (xs.map fun x => (x.reports P).countP fun r => r.lang == lang && r.kind == kind).sum := by
  have := C67_page P hP l [] xs h
  rw [List.append_nil, reports_nil, List.map_nil, List.append_nil] at this
  rw [this]
  generalize 0 = k
  clear this h
  induction xs generalizing k with
  | nil => rfl
  | cons x xs ih =>
    unfold pieceReports
    rw [List.countP_append, ih, List.map_cons, List.sum_cons, List.countP_map]
    rfl

/-! ### Cases -/

def htmlCss : Block := ⟨Emb.Html.parser, styleOpen, styleClose, parse_css, 1, [bytes "</"], 0⟩
def jspJava : Block := ⟨Emb.Jsp.parser, bytes "<%\n", bytes "%>\n", parse_java, 3, [bytes "%>"], 5⟩

instance (s W : List Byte) : Decidable (s <:+: W) := inferInstance

/-- A style sheet with a comment over two lines and a blank line. -/
theorem htmlCss_holds : htmlCss.Holds (bytes "/* one\n two */\n\nb { c: '<'; }\n") :=
  ⟨by decide +kernel, by decide +kernel⟩

example : htmlCss ∈ blocks ∧ (htmlCss.sub, LexisTable.css_line) ∈ classified ∧
    Plain (bytes "/* one\n two */\n\nb { c: '<'; }\n") ∧ LexisTable.css_line.WellFormed (bytes "/* one\n two */\n\nb { c: '<'; }\n") ∧
    (LexisTable.css_line.lines (bytes "/* one\n two */\n\nb { c: '<'; }\n")).map (·.2.2) = [.lcomment, .lcomment, .lblank, .lcode] :=
  ⟨List.mem_of_getElem? (i := 0) rfl, by simp [classified, htmlCss], by decide, by decide +kernel, by decide +kernel⟩

theorem jspJava_holds : jspJava.Holds (bytes "// one\nint a = b < c ? 5 % 3 : 1;\n") := ⟨by decide +kernel, by decide +kernel⟩

example : jspJava ∈ blocks := List.mem_of_getElem? (i := 6) rfl

/-- A page of three pieces. -/
example : ∀ x ∈ [Piece.plain (bytes "<p>\n"), .region jspJava (bytes "// one\nint a = b < c ? 5 % 3 : 1;\n"), .plain (bytes "</p>\n\n")],
    x.Fits Emb.Jsp.parser := by
  refine List.forall_mem_cons.mpr ⟨show Emb.Jsp.parser.whole _ = true by decide +kernel, List.forall_mem_cons.mpr ⟨⟨List.mem_of_getElem? (i := 6) rfl, rfl, jspJava_holds⟩,
    List.forall_mem_cons.mpr ⟨show Emb.Jsp.parser.whole _ = true by decide +kernel, fun _ h => nomatch h⟩⟩⟩

/-- An open comment or an end tag in a string is not such a text. -/
example : htmlCss.sub.line.machine.settled (bytes "/* one\n") = false ∧ bytes "</" <:+: bytes "b { c: '</d>'; }\n" :=
  ⟨by decide +kernel, by decide +kernel⟩

end Ohcount.Ragel
