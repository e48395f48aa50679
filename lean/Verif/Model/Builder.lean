import Verif.Model.Phase0.Helpers

/-! # The domain of messages to block builders -/

namespace Verif

/-- `builder/mod.rs:26-29` -/
def compute_builder_domain (E : Env) : Domain :=
  compute_domain E .ApplicationBuilder none none

end Verif
