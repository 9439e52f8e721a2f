import Verif.Model.Prelude

/-! How the default prelude loads the file with the secrets of the user. -/

namespace Dune.Prelude

/-- The name of the file (src/.default-dune-prelude:739). -/
def secretsNameText : Str := c!"let DUNE_SECRETS_FILE = HOME + \"/.dune-secrets\";"

/-- Loading it (src/.default-dune-prelude:742-744). -/
def secretsText : Str :=
  c!"if (fs@exists? DUNE_SECRETS_FILE) {\n" ++
  c!"    include DUNE_SECRETS_FILE;\n" ++
  c!"}"

/-- The line after it (src/.default-dune-prelude:746). -/
def cityText : Str := c!"let CITY = Knoxville;"

end Dune.Prelude
