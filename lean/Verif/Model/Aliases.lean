import Verif.Model.Prelude

/-! The commands that the default prelude defines according to the system. -/

namespace Dune.Prelude

/-- `ls`, `cat` and others (src/.default-dune-prelude:358-374). -/
def aliasText : Str :=
  c!"if os@name == \"windows\" {\n" ++
  c!"    let ls = dir ~> fs@ls dir | join \"\\n\" | echo;\n" ++
  c!"    let rm = fs@rm;\n" ++
  c!"    let cp = fs@cp;\n" ++
  c!"    let mv = fs@mv;\n" ++
  c!"    let mkdir = fs@mkdir;\n" ++
  c!"    let rmdir = fs@rmdir;\n" ++
  c!"\n" ++
  c!"    let cat = fs@read;\n" ++
  c!"} else {\n" ++
  c!"    if (fs@exists? HOME + \"/.cargo/bin/bat\") {\n" ++
  c!"        let cat = 'bat;\n" ++
  c!"    }\n" ++
  c!"    if (fs@exists? HOME + \"/.cargo/bin/lsd\") {\n" ++
  c!"        let ls = 'lsd;\n" ++
  c!"    }\n" ++
  c!"}"

end Dune.Prelude
