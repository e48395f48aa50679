import Verif.Spec.Config

/-! # Specification: signature domains -/

namespace Verif.Spec

/-- A domain: four bytes of purpose, then the first 28 bytes of the root of
(fork version, genesis validators root). -/
def domainOf (E : Env) (t : DomainType) (version : Version) (genesisRoot : Root) : Domain :=
  t.as_bytes ++ (E.fork_data_root version genesisRoot).toList.take 28

/-- The fork version in force at an epoch, as far as the state knows. -/
def versionAt (s : State) (epoch : Nat) : Version :=
  if epoch < s.fork.epoch then s.fork.previous_version else s.fork.current_version

/-- The domain for messages of an epoch. -/
def domainAt (E : Env) (s : State) (t : DomainType) (epoch : Nat) : Domain :=
  domainOf E t (versionAt s epoch) s.genesis_validators_root

end Verif.Spec
