import Verif.Spec.History
import Verif.Spec.Config
import Verif.Model.Upgrade

/-! # Specification: what is known in advance -/

namespace Verif.Spec

/-- `Future E f s f' s'`: some sequence of calls, each of which may succeed or fail, and of fork
upgrades turns the state `s` of fork `f` into the state `s'` of fork `f'`. -/
inductive Future (E : Env) (f : Fork) (s : State) : Fork → State → Prop
  | start : Future E f s f s
  | call {g : Fork} {t : State} {m : M Unit} : Future E f s g t → EntryPoint E g m →
      Future E f s g (finalState m t)
  | upgrade {g g' : Fork} {t t' : State} : Future E f s g t → g'.ord = g.ord + 1 →
      upgrade_to E g' t = .ok t' → Future E f s g' t'

end Verif.Spec
