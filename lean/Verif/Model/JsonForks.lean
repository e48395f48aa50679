import Verif.Model.JsonTypes

/-! # The enums over forks

The enums of `ethereum-consensus/src/types/`. Their variants are named by forks; there is none for
Electra. -/

namespace Verif.Json

/-- An enum over forks -/
structure ForkEnum where
  name : String
  /-- the variants, in the order in which `Deserialize` tries them -/
  order : List Fork
  /-- the type that each fork has under this name. Where a fork has none, and so no variant, the
  empty struct stands in its place. -/
  schema : Fork → Schema

/-- Stands for a type that a fork does not have. -/
def absent : Schema := .record .nil

/-- `types/beacon_state.rs:22-101`, tried in the order of `types/beacon_state.rs:944-958` -/
def BeaconState (K : Consts) : ForkEnum where
  name := "BeaconState"
  order := [.Deneb, .Capella, .Bellatrix, .Altair, .Phase0]
  schema
    | .Phase0 => phase0.BeaconState K
    | .Altair => altair.BeaconState K
    | .Bellatrix => bellatrix.BeaconState K
    | .Capella => capella.BeaconState K
    | .Deneb => deneb.BeaconState K
    | .Electra => electra.BeaconState K

/-- `types/beacon_block.rs:16-103`, tried in the order of `types/beacon_block.rs:522-536` -/
def BeaconBlock (K : Consts) : ForkEnum where
  name := "BeaconBlock"
  order := [.Deneb, .Capella, .Bellatrix, .Altair, .Phase0]
  schema
    | .Phase0 => phase0.BeaconBlock K
    | .Altair => altair.BeaconBlock K
    | .Bellatrix => bellatrix.BeaconBlock K
    | .Capella => capella.BeaconBlock K
    | .Deneb => deneb.BeaconBlock K
    | .Electra => electra.BeaconBlock K

/-- `types/beacon_block_body.rs:20-107`, tried in the order of `types/beacon_block_body.rs:656-670` -/
def BeaconBlockBody (K : Consts) : ForkEnum where
  name := "BeaconBlockBody"
  order := [.Deneb, .Capella, .Bellatrix, .Altair, .Phase0]
  schema
    | .Phase0 => phase0.BeaconBlockBody K
    | .Altair => altair.BeaconBlockBody K
    | .Bellatrix => bellatrix.BeaconBlockBody K
    | .Capella => capella.BeaconBlockBody K
    | .Deneb => deneb.BeaconBlockBody K
    | .Electra => electra.BeaconBlockBody K

/-- `types/signed_beacon_block.rs:16-103`, tried in the order of
`types/signed_beacon_block.rs:468-482` -/
def SignedBeaconBlock (K : Consts) : ForkEnum where
  name := "SignedBeaconBlock"
  order := [.Deneb, .Capella, .Bellatrix, .Altair, .Phase0]
  schema
    | .Phase0 => phase0.SignedBeaconBlock K
    | .Altair => altair.SignedBeaconBlock K
    | .Bellatrix => bellatrix.SignedBeaconBlock K
    | .Capella => capella.SignedBeaconBlock K
    | .Deneb => deneb.SignedBeaconBlock K
    | .Electra => electra.SignedBeaconBlock K

/-- `types/blinded_beacon_block.rs:14-69`, tried in the order of
`types/blinded_beacon_block.rs:362-370` -/
def BlindedBeaconBlock (K : Consts) : ForkEnum where
  name := "BlindedBeaconBlock"
  order := [.Deneb, .Capella, .Bellatrix]
  schema
    | .Bellatrix => bellatrix.BlindedBeaconBlock K
    | .Capella => capella.BlindedBeaconBlock K
    | .Deneb => deneb.BlindedBeaconBlock K
    | _ => absent

/-- `types/blinded_beacon_block_body.rs:19-74`, tried in the order of
`types/blinded_beacon_block_body.rs:459-467` -/
def BlindedBeaconBlockBody (K : Consts) : ForkEnum where
  name := "BlindedBeaconBlockBody"
  order := [.Deneb, .Capella, .Bellatrix]
  schema
    | .Bellatrix => bellatrix.BlindedBeaconBlockBody K
    | .Capella => capella.BlindedBeaconBlockBody K
    | .Deneb => deneb.BlindedBeaconBlockBody K
    | _ => absent

/-- `types/signed_blinded_beacon_block.rs:14-69`, tried in the order of
`types/signed_blinded_beacon_block.rs:320-328` -/
def SignedBlindedBeaconBlock (K : Consts) : ForkEnum where
  name := "SignedBlindedBeaconBlock"
  order := [.Deneb, .Capella, .Bellatrix]
  schema
    | .Bellatrix => bellatrix.SignedBlindedBeaconBlock K
    | .Capella => capella.SignedBlindedBeaconBlock K
    | .Deneb => deneb.SignedBlindedBeaconBlock K
    | _ => absent

/-- `types/execution_payload.rs:13-46`, tried in the order of `types/execution_payload.rs:429-437` -/
def ExecutionPayload (K : Consts) : ForkEnum where
  name := "ExecutionPayload"
  order := [.Deneb, .Capella, .Bellatrix]
  schema
    | .Bellatrix => bellatrix.ExecutionPayload K
    | .Capella => capella.ExecutionPayload K
    | .Deneb => deneb.ExecutionPayload K
    | .Electra => electra.ExecutionPayload K
    | _ => absent

/-- `types/execution_payload_header.rs:13-20`, tried in the order of
`types/execution_payload_header.rs:330-338` -/
def ExecutionPayloadHeader (K : Consts) : ForkEnum where
  name := "ExecutionPayloadHeader"
  order := [.Deneb, .Capella, .Bellatrix]
  schema
    | .Bellatrix => bellatrix.ExecutionPayloadHeader K
    | .Capella => capella.ExecutionPayloadHeader K
    | .Deneb => deneb.ExecutionPayloadHeader K
    | .Electra => electra.ExecutionPayloadHeader K
    | _ => absent

/-- All the enums over forks that `Deserialize` reads -/
def forkEnums (K : Consts) : List ForkEnum := [
  BeaconState K, BeaconBlock K, BeaconBlockBody K, SignedBeaconBlock K, BlindedBeaconBlock K,
  BlindedBeaconBlockBody K, SignedBlindedBeaconBlock K, ExecutionPayload K, ExecutionPayloadHeader K]

end Verif.Json
