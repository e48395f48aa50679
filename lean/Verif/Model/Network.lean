/-! # Networks: `networks.rs` -/

namespace Verif

/-- `networks.rs:12-20` -/
inductive Network
  | Mainnet
  | Sepolia
  | Goerli
  | Holesky
  | Hoodi
  | Custom (config : String)
  deriving DecidableEq, Repr

/-- `impl Display for Network`, `networks.rs:22-33`, and `From<Network> for String`,
`networks.rs:35-39` -/
def Network.display : Network → String
  | .Mainnet => "mainnet"
  | .Sepolia => "sepolia"
  | .Goerli => "goerli"
  | .Holesky => "holesky"
  | .Hoodi => "hoodi"
  | .Custom config_dir => "custom (" ++ config_dir ++ "/config.yaml)"

/-- `From<String> for Network`, `networks.rs:41-52` -/
def Network.ofString (value : String) : Network :=
  if value = "mainnet" then .Mainnet
  else if value = "sepolia" then .Sepolia
  else if value = "goerli" then .Goerli
  else if value = "holesky" then .Holesky
  else if value = "hoodi" then .Hoodi
  else .Custom value

end Verif
