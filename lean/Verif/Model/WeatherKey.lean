import Verif.Model.Prelude

/-! The macro of the default prelude that sets the key for the weather. -/

namespace Dune.Prelude

/-- `set-weather-api-key` (src/.default-dune-prelude:351-354). -/
def setKeyText : Str :=
  c!"let set-weather-api-key = WEATHER-API-KEY ~> CITY ~> {\n" ++
  c!"    # echo (fmt@green \"Set weather API key to \" + (str WEATHER-API-KEY) + \"!\");\n" ++
  c!"    reload-weather-api ();\n" ++
  c!"};"

/-- What the default prelude does with it (src/.default-dune-prelude:356). -/
def noKeyText : Str := c!"set-weather-api-key None;"

end Dune.Prelude
