import Verif.Model.Syntax

/-!
Definitions of the prelude that is installed when none exists (src/bin.rs:32, 634-657).  Each is taken
by itself, as if it had been entered at the prompt; the file is one text of such definitions.
-/

namespace Dune.Prelude

/-- `is-leapyear` (src/.default-dune-prelude:630-638). -/
def leapText : Str :=
  c!"let is-leapyear = year -> {\n" ++
  c!"    if year % 4 == 0 && year % 100 != 0 {\n" ++
  c!"        True\n" ++
  c!"    } else if year % 100 == 0 && year % 400 == 0 {\n" ++
  c!"        True\n" ++
  c!"    } else {\n" ++
  c!"        False\n" ++
  c!"    }\n" ++
  c!"};"

/-- `days-in-month` (src/.default-dune-prelude:640-646). -/
def dimText : Str :=
  c!"let days-in-month = month -> year -> {\n" ++
  c!"    if month == 2 {\n" ++
  c!"        28 + (if (is-leapyear year) 1 else 0)\n" ++
  c!"    } else {\n" ++
  c!"        31 - (((month - 1) % 7) % 2)\n" ++
  c!"    }\n" ++
  c!"};"

/-- `day-of-week` (src/.default-dune-prelude:648-656). -/
def dowText : Str :=
  c!"let day-of-week = m -> d -> y -> {\n" ++
  c!"    let t = [0, 3, 2, 5, 0, 3, 5, 1, 4, 6, 2, 4];\n" ++
  c!"\n" ++
  c!"    if m < 3 {\n" ++
  c!"        let y = y - 1\n" ++
  c!"    }\n" ++
  c!"\n" ++
  c!"    (((y + (int(y // 4.0))) - (int(y // 100.0))) + (int(y // 400.0)) + t@(m - 1) + d) % 7\n" ++
  c!"};"

/-- `MONTHS` (src/.default-dune-prelude:668-681). -/
def monthsText : Str :=
  c!"let MONTHS = [\n" ++
  c!"\t\"January\",\n" ++
  c!"\t\"February\",\n" ++
  c!"\t\"March\",\n" ++
  c!"\t\"April\",\n" ++
  c!"\t\"May\",\n" ++
  c!"\t\"June\",\n" ++
  c!"\t\"July\",\n" ++
  c!"\t\"August\",\n" ++
  c!"\t\"September\",\n" ++
  c!"\t\"October\",\n" ++
  c!"\t\"November\",\n" ++
  c!"\t\"December\"\n" ++
  c!"];"

/-- `make-calendar` (src/.default-dune-prelude:683-707). -/
def calText : Str :=
  c!"let make-calendar = m -> d -> y -> {\n" ++
  c!"    let now = {month=m, day=d, year=y};\n" ++
  c!"    let result = MONTHS@(now@month - 1) + \" \" + (str now@day) + \", \" + (str now@year) + \"\\n\";\n" ++
  c!"\tlet result = \" \" * ((28 - (len result)) // 2 + 1) + result;\n" ++
  c!"    let result = result + \" Su  Mo  Tu  We  Th  Fr  Sa\\n\";\n" ++
  c!"\n" ++
  c!"    let dof = day-of-week now@month 1 now@year;\n" ++
  c!"    let dim = days-in-month now@month now@year;\n" ++
  c!"\n" ++
  c!"    for i in 0 to dof {\n" ++
  c!"        let result = result + \"    \";\n" ++
  c!"    }\n" ++
  c!"\n" ++
  c!"    for i in 1 to dim + 1 {\n" ++
  c!"        let num = str i;\n" ++
  c!"        if (len num) < 2 {\n" ++
  c!"            let num = (if now@day == i \" *\" else \"  \") + num\n" ++
  c!"        } else {\n" ++
  c!"            let num = (if now@day == i \"*\" else \" \") + num\n" ++
  c!"        }\n" ++
  c!"\n" ++
  c!"        let result = result + num + (if (i + dof) % 7 == 0 \"\\n\" else \" \")\n" ++
  c!"    }\n" ++
  c!"    widget@create \"Calendar\" result 30 10\n" ++
  c!"};"

/-- `cal` (src/.default-dune-prelude:709-714). -/
def calmText : Str :=
  c!"let cal = _ ~> {\n" ++
  c!"    (_ -> {\n" ++
  c!"        let now = time@now ();\n" ++
  c!"        make-calendar now@month now@day now@year\n" ++
  c!"    }) ();\n" ++
  c!"};"

/-- `include` (src/.default-dune-prelude:35). -/
def includeText : Str :=
  c!"let include = file ~> exec (parse@expr (fs@read file));"

/-- `use` (src/.default-dune-prelude:36). -/
def useText : Str :=
  c!"let use = file ~> eval (parse@expr (fs@read file));"

/-- `get` (src/.default-dune-prelude:37). -/
def getText : Str :=
  c!"let get = key -> table -> table@(key);"

/-- `concat` (src/.default-dune-prelude:39). -/
def concatText : Str :=
  c!"let concat = x -> y -> (str y) + (str x);"

/-- `ssh` (src/.default-dune-prelude:41-43). -/
def sshText : Str :=
  c!"let ssh = addr -> user -> {\n" ++
  c!"\t'ssh -X (str user) + \"@\" + (str addr);\n" ++
  c!"};"

/-- `scp` (src/.default-dune-prelude:45-48). -/
def scpText : Str :=
  c!"let scp = addr -> user -> src -> dst -> {\n" ++
  c!"    # Call the actual overshadowed scp program\n" ++
  c!"    'scp -r src (str user) + \"@\" + (str addr) + \":\" + (str dst)\n" ++
  c!"};"

/-- `~` (src/.default-dune-prelude:50). -/
def tildeText : Str :=
  c!"let ~ = x -> HOME + \"/\" + (str x) | fs@canon;"

/-- `quit`, `q` and `exit` (src/.default-dune-prelude:52-55). -/
def exitText : Str :=
  c!"let OLD-EXIT = exit;\n" ++
  c!"let quit = _ ~> OLD-EXIT 0;\n" ++
  c!"let q = quit;\n" ++
  c!"let exit = quit;"

end Dune.Prelude
