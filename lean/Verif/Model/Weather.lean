import Verif.Model.Prelude

/-!
The download of the default prelude.  In the source the definition is the first statement of the macro
`reload-weather-api`, which is called when the key is set; a macro runs its statements in the scope of the caller, so
here the definition is entered by itself.  The other statement of the macro (the definition of `weather`, which draws
what was downloaded) is not modelled.
-/

namespace Dune.Prelude

/-- `weather-api` (src/.default-dune-prelude:283-295). -/
def weatherApiText : Str :=
  c!"let weather-api = units -> city -> {\n" ++
  c!"\t# Confirm that the API key is not None\n" ++
  c!"        if WEATHER-API-KEY == None {\n" ++
  c!"\t    # If so, print error message\n" ++
  c!"            echo (fmt@italics (fmt@red \"Please set your `openweathermap.org` API key with the `set-weather-api-key` macro!\"))\n" ++
  c!"        } else {\n" ++
  c!"\t    # If not, use the key, download the JSON with CURL, and parse it into a table!\n" ++
  c!"            let BASE_URL = \"http://api.openweathermap.org/data/2.5/weather?q=\";\n" ++
  c!"            let URL = BASE_URL + (str city) + \"&units=\" + (str units) + \"&appid=\" + (str WEATHER-API-KEY);\n" ++
  c!"\t    # Download and parse JSON into table\n" ++
  c!"            curl --silent URL | parse@json\n" ++
  c!"        }\n" ++
  c!"    };"

end Dune.Prelude
