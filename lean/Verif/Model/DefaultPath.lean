import Verif.Model.Conf

/-!
# Where the configuration is read from

Models `Config::get_default_path` and the programs' `get_config`. Not modelled: the Windows variants.
-/

namespace Letmein

/-- `std::path::PathBuf::push` on Unix: an absolute path replaces the former one; otherwise a separator is put between the two unless the former is
empty or ends with one. -/
def pathPush (path new : Str) : Str :=
  if new.head? = some '/' then new
  else if path = [] ∨ path.getLast? = some '/' then path ++ new
  else path ++ '/' :: new

/-- `/repo/letmein-conf/src/lib.rs:34-38` `SERVER_CONF_PATH`. -/
def SERVER_CONF_PATH : Str := "etc/letmeind.conf".toList

/-- `/repo/letmein-conf/src/lib.rs:40-44` `CLIENT_CONF_PATH`. -/
def CLIENT_CONF_PATH : Str := "etc/letmein.conf".toList

/-- `/repo/letmein-conf/src/lib.rs:483-508` `Config::get_default_path`; `prefix_` is the value of `LETMEIN_CONF_PREFIX` at build time. -/
def getDefaultPath (prefix_ : Option Str) (variant : ConfigVariant) : Str :=
  let path := pathPush [] (prefix_.getD "/".toList)
  match variant with
  | .Client => pathPush path CLIENT_CONF_PATH
  | .Server => pathPush path SERVER_CONF_PATH

/-- `/repo/letmein/src/main.rs:127-136`, `/repo/letmeind/src/main.rs:111-120` and `/repo/letmeinfwd/src/main.rs:153-161` `Opts::get_config`: the option `--config`
if given, otherwise the default of the program's variant. -/
def getConfigPath (prefix_ : Option Str) (variant : ConfigVariant) (config : Option Str) : Str :=
  match config with
  | some c => c
  | none => getDefaultPath prefix_ variant

end Letmein
