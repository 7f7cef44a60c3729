import Verif.Gram.Emb1
import Verif.Gram.Emb2
import Verif.Gram.Emb3
import Verif.Gram.Emb4

/-! The parsers with embedded languages. Generated by tools/gen_embedded.py. -/

namespace Ohcount.Gram
open Ohcount.Ragel

/-- All modelled parsers with embedded languages. -/
def embParsers : List EParser := [
  Emb.Html.parser, Emb.Mxml.parser, Emb.Nix.parser, Emb.Coffeescript.parser, Emb.MetapostWithTex.parser, Emb.Jsp.parser, Emb.Phphtml.parser, Emb.Clearsilverhtml.parser, Emb.CsAspx.parser, Emb.Rhtml.parser, Emb.VbAspx.parser, Emb.Perl.parser, Emb.Haml.parser]

end Ohcount.Gram
