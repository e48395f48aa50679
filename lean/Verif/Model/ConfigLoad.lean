import Verif.Model.ConfigTables

/-! # Loading configurations: `Context::from`, `Context::try_from_file`, `TryFrom<Network>` -/

namespace Verif.Config

/-- The fields of a `Context`, without `execution_engine` and `kzg_settings` -/
abbrev Parameters := List (String × Value)

/-- `Context::from`, `state_transition/context.rs:196-328` -/
def Context_from (preset : Source → List (String × Nat)) (config : List (String × Value)) :
    Parameters :=
  assignments.filterMap fun (name, source, field) =>
    (match source with
      | .config => get config field
      | source => (get (preset source) field).map .num).map fun v => (name, v)

/-- `Context::try_from_file`, `state_transition/context.rs:152-194`; `file` is `none` if it cannot be
opened. -/
def try_from_file (Y : Yaml) (file : Option (File Y)) : Except ConfigError Parameters := do
  let file ← file.elim (.error .io) .ok
  let config ← (readConfig Y fields file).elim (.error .yaml) .ok
  match get config "preset_base" with
  | some (.text "mainnet") => .ok (Context_from mainnet config)
  | some (.text "minimal") => .ok (Context_from minimal config)
  | some (.text other) => .error (.unknownPreset other)
  | _ => .error .yaml

/-- `for_mainnet`, `state_transition/context.rs:330-347` -/
def for_mainnet : Parameters := Context_from mainnet config_mainnet
/-- `for_minimal`, `state_transition/context.rs:349-366` -/
def for_minimal : Parameters := Context_from minimal config_minimal
/-- `for_goerli`, `state_transition/context.rs:368-385` -/
def for_goerli : Parameters := Context_from mainnet config_goerli
/-- `for_sepolia`, `state_transition/context.rs:387-404` -/
def for_sepolia : Parameters := Context_from mainnet config_sepolia
/-- `for_holesky`, `state_transition/context.rs:406-423` -/
def for_holesky : Parameters := Context_from mainnet config_holesky
/-- `for_hoodi`, `state_transition/context.rs:425-442` -/
def for_hoodi : Parameters := Context_from mainnet config_hoodi

/-- `PathBuf::join` of a relative path without special components -/
def join (dir file : String) : String :=
  if dir = "" then file else if dir.endsWith "/" then dir ++ file else dir ++ "/" ++ file

/-- `TryFrom<Network> for Context`, `networks.rs:54-70`; `files` is the file system. -/
def try_from_network (Y : Yaml) (files : String → Option (File Y)) :
    Network → Except ConfigError Parameters
  | .Mainnet => .ok for_mainnet
  | .Sepolia => .ok for_sepolia
  | .Goerli => .ok for_goerli
  | .Holesky => .ok for_holesky
  | .Hoodi => .ok for_hoodi
  | .Custom config => try_from_file Y (files (join config "config.yaml"))

end Verif.Config
