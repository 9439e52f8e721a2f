import Verif.Model.Prelude

/-! The pictures of the dashboard of the default prelude. -/

namespace Dune.Prelude

/-- `PLANTS` (src/.default-dune-prelude:176-213). -/
def plantsText : Str :=
  c!"let PLANTS = [\"    _ _\n" ++
  c!"   (_\\\\_)\n" ++
  c!"  (__<_{}\n" ++
  c!"   (_/_)\n" ++
  c!"  |\\\\ |   \n" ++
  c!"   \\\\\\\\| /|\n" ++
  c!"    \\\\|//\n" ++
  c!"     |/\n" ++
  c!",.,.,|.,.,.,\n" ++
  c!"^`^`^`^`^`^`\",\n" ++
  c!"\"    .--.\n" ++
  c!"  .'_\\\\/_'.\n" ++
  c!"  '. /\\\\ .'\n" ++
  c!"    \\\"||\\\"\n" ++
  c!"     || /\\\\\n" ++
  c!"  /\\\\ ||//\\\\)\n" ++
  c!" (/\\\\\\\\||/\n" ++
  c!"____\\\\||/____\n" ++
  c!"^`^`^`^`^`^`^\",\n" ++
  c!"\"\n" ++
  c!"       __/)\n" ++
  c!"    .-(__(=:\n" ++
  c!" |\\\\ |    \\\\)\n" ++
  c!" \\\\ ||\n" ++
  c!"  \\\\||\n" ++
  c!"   \\\\|\n" ++
  c!"____|_______\n" ++
  c!"^`^`^`^`^`^`\",\n" ++
  c!"\"\n" ++
  c!"     _\n" ++
  c!"   .\\\\ /.\n" ++
  c!"  < ~O~ >\n" ++
  c!"   '/_\\\\'\n" ++
  c!"   \\\\ | /\n" ++
  c!"    \\\\|/\n" ++
  c!",.,.,|.,.,.,\n" ++
  c!"^`^`^`^`^`^`\"\n" ++
  c!"];"

/-- `CATS` (src/.default-dune-prelude:399-437). -/
def catsText : Str :=
  c!"let CATS = [\"\n" ++
  c!"      _\n" ++
  c!"    |\\\\'/-..--.\n" ++
  c!"   / _ _   ,  ;\n" ++
  c!"  `~=`Y'~_<._./\n" ++
  c!"   <`-....__.'\",\n" ++
  c!"\"\n" ++
  c!"\n" ++
  c!"  |\\\\__/,|   (`\\\\\n" ++
  c!"  |_ _  |.--.) )\n" ++
  c!"  ( T   )     /\n" ++
  c!" (((^_(((/(((_/\",\n" ++
  c!"\"\n" ++
  c!"\n" ++
  c!"    \\\\    /\\\\\n" ++
  c!"     )  ( ')\n" ++
  c!"    (  /  )\n" ++
  c!"     \\\\(__)|\",\n" ++
  c!"\"\n" ++
  c!"\n" ++
  c!"       ^~^  ,\n" ++
  c!"      ('Y') )\n" ++
  c!"      /   \\\\/\n" ++
  c!"     (\\\\|||/)\",\n" ++
  c!"\"    .       .\n" ++
  c!"    \\\\`-\\\"'\\\"-'/\n" ++
  c!"     } 6 6 {\n" ++
  c!"    =.  Y  ,=\n" ++
  c!"      /^^^\\\\  .\n" ++
  c!"     /     \\\\  )\n" ++
  c!"    (  )-(  )/\n" ++
  c!"     \\\"\\\"   \\\"\\\"\",\n" ++
  c!"\"\n" ++
  c!"\n" ++
  c!"         /\\\\_/\\\\\n" ++
  c!"    ____/ o o \\\\\n" ++
  c!"  /~____  =Y= /\n" ++
  c!" (______)__m_m)\"\n" ++
  c!"];"

end Dune.Prelude
