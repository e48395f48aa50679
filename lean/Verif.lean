import Verif.Model.Executor
import Verif.Props.Shuffling
import Verif.Props.Predicates
import Verif.Props.Exits
import Verif.Props.Slashing
import Verif.Props.Operations
import Verif.Props.Deposits
import Verif.Props.Attestations
import Verif.Props.Registry
import Verif.Props.Frames
import Verif.Props.Slots
import Verif.Props.Slashings
import Verif.Props.Rings
import Verif.Props.Casper
import Verif.Props.Epoch
import Verif.Props.Activation
import Verif.Props.Sync
import Verif.Props.Upgrade
import Verif.Props.Executor
import Verif.Props.Withdrawals
import Verif.Props.Queues
import Verif.Props.Genesis
import Verif.Props.Clock
import Verif.Props.Blobs
import Verif.Props.Text
import Verif.Props.Keys
import Verif.Spec.Rotation
import Verif.Proofs.Rotation
import Verif.Props.Rotation
import Verif.Spec.Rewards
import Verif.Proofs.Rewards
import Verif.Proofs.Pending
import Verif.Props.Rewards
import Verif.Spec.Safety
import Verif.Proofs.CalmAttr
import Verif.Proofs.Calm
import Verif.Proofs.Safety
import Verif.Proofs.SafetyAltair
import Verif.Proofs.SafetyBlock
import Verif.Props.Safety
import Verif.Proofs.SafetyRewards
import Verif.Proofs.SafetyEpoch
import Verif.Proofs.SafetyPhase0
import Verif.Proofs.SafetyTransition
import Verif.Props.Progress
import Verif.Spec.Ancestry
import Verif.Spec.Duties
import Verif.Proofs.Ancestry
import Verif.Proofs.Duties
import Verif.Props.Ancestry
import Verif.Props.Duties
import Verif.Examples.Chains
import Verif.Spec.Requests
import Verif.Props.Requests
import Verif.Spec.Finality
import Verif.Proofs.Ballots
import Verif.Proofs.Finality
import Verif.Props.Finality
import Verif.Examples.Presets
import Verif.Model.Json
import Verif.Model.JsonTypes
import Verif.Model.JsonApi
import Verif.Model.JsonForks
import Verif.Spec.Json
import Verif.Proofs.Json
import Verif.Proofs.JsonTypes
import Verif.Props.Json
import Verif.Model.Bls
import Verif.Spec.Bls
import Verif.Proofs.Bls
import Verif.Props.Bls
import Verif.Model.Ssz
import Verif.Spec.Ssz
import Verif.Proofs.Ssz
import Verif.Proofs.SszBranch
import Verif.Props.Ssz
import Verif.Spec.SafetyElectra
import Verif.Proofs.SafetyElectra
import Verif.Proofs.SafetyElectraVotes
import Verif.Proofs.SafetyElectraOps
import Verif.Proofs.SafetyElectraBlock
import Verif.Proofs.SafetyElectraEpoch
import Verif.Proofs.Overflow
import Verif.Props.SafetyElectra
import Verif.Model.PeerId
import Verif.Model.Api
import Verif.Spec.Api
import Verif.Proofs.PeerId
import Verif.Proofs.Api
import Verif.Proofs.ApiCalls
import Verif.Proofs.ApiServed
import Verif.Props.PeerId
import Verif.Props.Api
import Verif.Props.GenesisBlock
import Verif.Props.Identity
import Verif.Props.Turn
import Verif.Proofs.Turn
import Verif.Spec.Turn
import Verif.Props.Leaving
import Verif.Proofs.Leaving
import Verif.Spec.Leaving
import Verif.Spec.Liveness
import Verif.Proofs.Liveness
import Verif.Props.Liveness
import Verif.Props.Supply
import Verif.Proofs.Supply
import Verif.Spec.Supply
import Verif.Props.ApiResponse
import Verif.Model.Accessors
import Verif.Model.AccessorTables
import Verif.Spec.Accessors
import Verif.Proofs.Accessors
import Verif.Props.Accessors
import Verif.Model.SszCodec
import Verif.Spec.SszCodec
import Verif.Proofs.SszCodec
import Verif.Proofs.SszCanonical
import Verif.Props.SszCodec
import Verif.Model.Config
import Verif.Model.ConfigTables
import Verif.Model.ConfigLoad
import Verif.Spec.ConfigFiles
import Verif.Proofs.ConfigFiles
import Verif.Props.ConfigFiles
import Verif.Spec.PeerId
import Verif.Model.Kzg
import Verif.Spec.Kzg
import Verif.Proofs.Modulus
import Verif.Proofs.Kzg
import Verif.Props.Kzg
import Verif.Spec.Parts
import Verif.Proofs.Parts
import Verif.Proofs.Proposer
import Verif.Proofs.Whole
import Verif.Props.Parts
import Verif.Props.Ends
import Verif.Spec.Ledger
import Verif.Proofs.Ledger
import Verif.Props.Ledger
import Verif.Spec.Order
import Verif.Proofs.Order
import Verif.Props.Order
import Verif.Model.SpecGen
import Verif.Spec.SpecGen
import Verif.Examples.SpecGenData
import Verif.Proofs.SpecGenCheck
import Verif.Props.SpecGen
import Verif.Spec.Advance
import Verif.Proofs.Firm
import Verif.Proofs.Advance
import Verif.Proofs.AdvancePhase0
import Verif.Proofs.AdvanceEpoch
import Verif.Proofs.AdvanceBlock
import Verif.Props.Advance
import Verif.Spec.Guilt
import Verif.Proofs.Guilt
import Verif.Proofs.GuiltShown
import Verif.Props.Guilt
import Verif.Spec.Keep
import Verif.Proofs.KeepBook
import Verif.Proofs.Keep
import Verif.Proofs.KeepVotes
import Verif.Props.Keep
import Verif.Proofs.AdvanceElectra
import Verif.Spec.AdvanceElectra
import Verif.Proofs.AdvanceElectraBlock
import Verif.Proofs.GuiltElectra
import Verif.Props.AdvanceElectra
import Verif.Props.GuiltElectra
import Verif.Spec.Pace
import Verif.Proofs.Pace
import Verif.Props.Pace
import Verif.Spec.Lock
import Verif.Proofs.Lock
import Verif.Props.Lock
import Verif.Model.KeyFiles
import Verif.Spec.KeyFiles
import Verif.Props.KeyFiles
import Verif.Props.KeepPlain
import Verif.Model.Builder
import Verif.Props.Builder
import Verif.Proofs.Joining
import Verif.Props.Joining
import Verif.Spec.Credit
import Verif.Proofs.Credit
import Verif.Props.Credit
import Verif.Model.TypeGen
import Verif.Model.TypeGenTables
import Verif.Spec.TypeGen
import Verif.Proofs.TypeGen
import Verif.Props.TypeGen
import Verif.Spec.Rationed
import Verif.Proofs.Rationed
import Verif.Props.LeavingElectra
import Verif.Proofs.Funded
import Verif.Proofs.Newcomers
import Verif.Proofs.KeptFlags
import Verif.Props.JoiningElectra
import Verif.Props.KeptFlags
import Verif.Proofs.Replay
import Verif.Props.Replay
import Verif.Proofs.Capacity
import Verif.Props.Capacity
import Verif.Proofs.Blinding
import Verif.Props.Blinding
