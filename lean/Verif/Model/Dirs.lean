import Verif.Model.Start

/-!
`fs@dirs` (src/binary/init/fs_module.rs:42-73, 111).  A directory whose path is not Unicode makes the start of the shell
panic (`into_string().unwrap()`); here the paths are texts.
-/

namespace Dune.Init

/-- `dir_tree` (fs_module.rs:43, 48, 59, 65, 71) -/
def dirTree (X : Machine) : List (Str × Expr) :=
  defineDir c!"home" X.home ++ defineDir c!"desk" X.desktop ++ defineDir c!"docs" X.documents ++
    defineDir c!"down" X.downloads

/-- The machine with the member `dirs` of the module `fs` (fs_module.rs:111). -/
def withDirs (X : Machine) : Machine :=
  { X with more := fun m => if m = c!"fs" then X.more m ++ [(c!"dirs", .map (BMap.ofList (dirTree X)))] else X.more m }

end Dune.Init
