import Verif.Model.Text

/-! The definition of `$` in the default prelude, as text. -/

namespace Dune.Prelude

/-- `$` (src/.default-dune-prelude:33). -/
def dollarText : Str :=
  c!"let $ = GLOB ~> ((fs@ls .) | (fn@filter (file -> (len (string@split GLOB file)) == 2)));"

end Dune.Prelude
