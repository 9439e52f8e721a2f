import Verif.Model.Start

/-!
`os@name`, `os@family` and `os@version` (src/binary/init/os_module.rs:6-13, src/bin.rs:375-431).  What the crate
`os_info` finds out is a parameter.
-/

namespace Dune.Init

/-- `os_info::Type`: the systems that the shell knows by name, and the others (`Unknown | _`) -/
inductive OsType
  | alpine
  | amazon
  | android
  | arch
  | centos
  | debian
  | macos
  | fedora
  | linux
  | manjaro
  | mint
  | opensuse
  | endeavouros
  | oraclelinux
  | pop
  | redhat
  | redhatenterprise
  | redox
  | solus
  | suse
  | ubuntu
  | windows
  | other
deriving DecidableEq

/-- `get_os_name` (src/bin.rs:375-402) -/
def osName : OsType → Str
  | .alpine => c!"alpine"
  | .amazon => c!"amazon"
  | .android => c!"android"
  | .arch => c!"arch"
  | .centos => c!"centos"
  | .debian => c!"debian"
  | .macos => c!"macos"
  | .fedora => c!"fedora"
  | .linux => c!"linux"
  | .manjaro => c!"manjaro"
  | .mint => c!"mint"
  | .opensuse => c!"opensuse"
  | .endeavouros => c!"endeavouros"
  | .oraclelinux => c!"oraclelinux"
  | .pop => c!"pop"
  | .redhat => c!"redhat"
  | .redhatenterprise => c!"redhatenterprise"
  | .redox => c!"redox"
  | .solus => c!"solus"
  | .suse => c!"suse"
  | .ubuntu => c!"ubuntu"
  | .windows => c!"windows"
  | .other => c!"unknown"

/-- `get_os_family` (src/bin.rs:404-431) -/
def osFamily : OsType → Str
  | .amazon | .android => c!"android"
  | .alpine | .arch | .centos | .debian | .fedora | .linux | .manjaro | .mint |
    .opensuse | .endeavouros | .oraclelinux | .pop | .redhat | .redhatenterprise | .suse | .ubuntu => c!"linux"
  | .macos | .solus | .redox => c!"unix"
  | .windows => c!"windows"
  | .other => c!"unknown"

/-- The machine with the constants of the module `os` (src/binary/init/os_module.rs:11-13). -/
def withOs (X : Machine) (t : OsType) (version : Str) : Machine :=
  { X with more := fun m => if m = c!"os" then X.more m ++
      [(c!"name", .str (osName t)), (c!"family", .str (osFamily t)), (c!"version", .str version)] else X.more m }

end Dune.Init
