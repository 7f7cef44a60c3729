import Verif.Cert.E1
import Verif.Cert.E2
import Verif.Cert.E3
import Verif.Cert.E4

/-! Generated by tools/gen_embcerts.py. -/

namespace Ohcount.Cert
open Ohcount.Ragel Ohcount.Gram

set_option maxRecDepth 100000

/-- The machines that `parse_<lang>` uses for lines pass the check. -/
theorem embLineAll : ∀ P ∈ embParsers, Checked P P.line false false :=
  (List.forall_mem_cons.mpr ⟨Checked.of html_M_eq rfl (by decide) rfl (by decide) (by decide) html_line_certs,
  (List.forall_mem_cons.mpr ⟨Checked.of mxml_M_eq rfl (by decide) rfl (by decide) (by decide) mxml_line_certs,
  (List.forall_mem_cons.mpr ⟨Checked.of nix_M_eq rfl (by decide) rfl (by decide) (by decide) nix_line_certs,
  (List.forall_mem_cons.mpr ⟨Checked.of coffeescript_M_eq rfl (by decide) rfl (by decide) (by decide) coffeescript_line_certs,
  (List.forall_mem_cons.mpr ⟨Checked.of metapostWithTex_M_eq rfl (by decide) rfl (by decide) (by decide) metapostWithTex_line_certs,
  (List.forall_mem_cons.mpr ⟨Checked.of jsp_M_eq rfl (by decide) rfl (by decide) (by decide) jsp_line_certs,
  (List.forall_mem_cons.mpr ⟨Checked.of phphtml_M_eq rfl (by decide) rfl (by decide) (by decide) phphtml_line_certs,
  (List.forall_mem_cons.mpr ⟨Checked.of clearsilverhtml_M_eq rfl (by decide) rfl (by decide) (by decide) clearsilverhtml_line_certs,
  (List.forall_mem_cons.mpr ⟨Checked.of csAspx_M_eq rfl (by decide) rfl (by decide) (by decide) csAspx_line_certs,
  (List.forall_mem_cons.mpr ⟨Checked.of rhtml_M_eq rfl (by decide) rfl (by decide) (by decide) rhtml_line_certs,
  (List.forall_mem_cons.mpr ⟨Checked.of vbAspx_M_eq rfl (by decide) rfl (by decide) (by decide) vbAspx_line_certs,
  (List.forall_mem_cons.mpr ⟨Checked.of perl_M_eq rfl (by decide) rfl (by decide) (by decide) perl_line_certs,
  (List.forall_mem_cons.mpr ⟨Checked.of haml_M_eq rfl (by decide) rfl (by decide) (by decide) haml_line_certs,
  (fun _ h => nomatch h)⟩)⟩)⟩)⟩)⟩)⟩)⟩)⟩)⟩)⟩)⟩)⟩)⟩)

/-- Those for which it shows that no callback is computed from a NULL pointer. -/
def embStrictLine : List EParser := [Emb.Mxml.parser, Emb.Nix.parser, Emb.Coffeescript.parser, Emb.MetapostWithTex.parser, Emb.Perl.parser]
theorem embStrictLineAll : ∀ P ∈ embStrictLine, Checked P P.line true false :=
  (List.forall_mem_cons.mpr ⟨Checked.of mxml_M_eq rfl (by decide) rfl (by decide) (by decide) mxml_line_certs,
  (List.forall_mem_cons.mpr ⟨Checked.of nix_M_eq rfl (by decide) rfl (by decide) (by decide) nix_line_certs,
  (List.forall_mem_cons.mpr ⟨Checked.of coffeescript_M_eq rfl (by decide) rfl (by decide) (by decide) coffeescript_line_certs,
  (List.forall_mem_cons.mpr ⟨Checked.of metapostWithTex_M_eq rfl (by decide) rfl (by decide) (by decide) metapostWithTex_line_certs,
  (List.forall_mem_cons.mpr ⟨Checked.of perl_M_eq rfl (by decide) rfl (by decide) (by decide) perl_line_certs,
  (fun _ h => nomatch h)⟩)⟩)⟩)⟩)⟩)

/-- Those for which it does if no end tag contains a line end. -/
def embTaggedLine : List EParser := [Emb.Html.parser]
theorem embTaggedLineAll : ∀ P ∈ embTaggedLine, Checked P P.line true true :=
  (List.forall_mem_cons.mpr ⟨Checked.of html_M_eq rfl (by decide) rfl (by decide) (by decide) html_linet_certs,
  (fun _ h => nomatch h)⟩)

/-- The machines that `parse_<lang>` uses for entities pass the check. -/
theorem embEntityAll : ∀ P ∈ embParsers, Checked P P.entity false false :=
  (List.forall_mem_cons.mpr ⟨Checked.of html_M_eq rfl (by decide) rfl (by decide) (by decide) html_entity_certs,
  (List.forall_mem_cons.mpr ⟨Checked.of mxml_M_eq rfl (by decide) rfl (by decide) (by decide) mxml_entity_certs,
  (List.forall_mem_cons.mpr ⟨Checked.of nix_M_eq rfl (by decide) rfl (by decide) (by decide) nix_entity_certs,
  (List.forall_mem_cons.mpr ⟨Checked.of coffeescript_M_eq rfl (by decide) rfl (by decide) (by decide) coffeescript_entity_certs,
  (List.forall_mem_cons.mpr ⟨Checked.of metapostWithTex_M_eq rfl (by decide) rfl (by decide) (by decide) metapostWithTex_entity_certs,
  (List.forall_mem_cons.mpr ⟨Checked.of jsp_M_eq rfl (by decide) rfl (by decide) (by decide) jsp_entity_certs,
  (List.forall_mem_cons.mpr ⟨Checked.of phphtml_M_eq rfl (by decide) rfl (by decide) (by decide) phphtml_entity_certs,
  (List.forall_mem_cons.mpr ⟨Checked.of clearsilverhtml_M_eq rfl (by decide) rfl (by decide) (by decide) clearsilverhtml_entity_certs,
  (List.forall_mem_cons.mpr ⟨Checked.of csAspx_M_eq rfl (by decide) rfl (by decide) (by decide) csAspx_entity_certs,
  (List.forall_mem_cons.mpr ⟨Checked.of rhtml_M_eq rfl (by decide) rfl (by decide) (by decide) rhtml_entity_certs,
  (List.forall_mem_cons.mpr ⟨Checked.of vbAspx_M_eq rfl (by decide) rfl (by decide) (by decide) vbAspx_entity_certs,
  (List.forall_mem_cons.mpr ⟨Checked.of perl_M_eq rfl (by decide) rfl (by decide) (by decide) perl_entity_certs,
  (List.forall_mem_cons.mpr ⟨Checked.of haml_M_eq rfl (by decide) rfl (by decide) (by decide) haml_entity_certs,
  (fun _ h => nomatch h)⟩)⟩)⟩)⟩)⟩)⟩)⟩)⟩)⟩)⟩)⟩)⟩)⟩)

/-- Those for which it shows that no callback is computed from a NULL pointer. -/
def embStrictEntity : List EParser := [Emb.Mxml.parser, Emb.Nix.parser, Emb.Coffeescript.parser, Emb.MetapostWithTex.parser, Emb.Perl.parser, Emb.Haml.parser]
theorem embStrictEntityAll : ∀ P ∈ embStrictEntity, Checked P P.entity true false :=
  (List.forall_mem_cons.mpr ⟨Checked.of mxml_M_eq rfl (by decide) rfl (by decide) (by decide) mxml_entity_certs,
  (List.forall_mem_cons.mpr ⟨Checked.of nix_M_eq rfl (by decide) rfl (by decide) (by decide) nix_entity_certs,
  (List.forall_mem_cons.mpr ⟨Checked.of coffeescript_M_eq rfl (by decide) rfl (by decide) (by decide) coffeescript_entity_certs,
  (List.forall_mem_cons.mpr ⟨Checked.of metapostWithTex_M_eq rfl (by decide) rfl (by decide) (by decide) metapostWithTex_entity_certs,
  (List.forall_mem_cons.mpr ⟨Checked.of perl_M_eq rfl (by decide) rfl (by decide) (by decide) perl_entity_certs,
  (List.forall_mem_cons.mpr ⟨Checked.of haml_M_eq rfl (by decide) rfl (by decide) (by decide) haml_entity_certs,
  (fun _ h => nomatch h)⟩)⟩)⟩)⟩)⟩)⟩)

/-- Those for which it does if no end tag contains a line end. -/
def embTaggedEntity : List EParser := [Emb.Html.parser, Emb.Jsp.parser, Emb.Phphtml.parser, Emb.Clearsilverhtml.parser, Emb.CsAspx.parser, Emb.Rhtml.parser, Emb.VbAspx.parser]
theorem embTaggedEntityAll : ∀ P ∈ embTaggedEntity, Checked P P.entity true true :=
  (List.forall_mem_cons.mpr ⟨Checked.of html_M_eq rfl (by decide) rfl (by decide) (by decide) html_entityt_certs,
  (List.forall_mem_cons.mpr ⟨Checked.of jsp_M_eq rfl (by decide) rfl (by decide) (by decide) jsp_entityt_certs,
  (List.forall_mem_cons.mpr ⟨Checked.of phphtml_M_eq rfl (by decide) rfl (by decide) (by decide) phphtml_entityt_certs,
  (List.forall_mem_cons.mpr ⟨Checked.of clearsilverhtml_M_eq rfl (by decide) rfl (by decide) (by decide) clearsilverhtml_entityt_certs,
  (List.forall_mem_cons.mpr ⟨Checked.of csAspx_M_eq rfl (by decide) rfl (by decide) (by decide) csAspx_entityt_certs,
  (List.forall_mem_cons.mpr ⟨Checked.of rhtml_M_eq rfl (by decide) rfl (by decide) (by decide) rhtml_entityt_certs,
  (List.forall_mem_cons.mpr ⟨Checked.of vbAspx_M_eq rfl (by decide) rfl (by decide) (by decide) vbAspx_entityt_certs,
  (fun _ h => nomatch h)⟩)⟩)⟩)⟩)⟩)⟩)⟩)

end Ohcount.Cert
