import Verif.Proofs.Joining

/-! # C102: a deposit leads to an active validator -/

namespace Verif.Props

open Spec

variable {E : Env} {f : Fork} {s s₁ : State}

/-- **C102** Before electra, whoever deposits the maximum effective balance under a new key becomes an
active validator: a block that is accepted with their signed deposit gives them a validator `i`. As
soon as the chain has left the epoch `e` of the block, validator `i` is on the activation queue since
epoch `e + 1`. Once that epoch is final, in a state `t`, it is activated within the number of epochs
that those before it on the queue take at the slowest service, plus the usual delay, whatever blocks
and slots follow. -/
theorem C102_deposit_is_honoured (ho : Orderly E f s) (hf : f ≠ .Electra)
    (hmax : 0 < E.max_deposits) (hk : f = .Deneb → 0 < E.max_per_epoch_activation_churn_limit)
    {b : BeaconBlock} (h : process_block E f b s = .ok () s₁) {d : Deposit}
    (hd : d ∈ b.body.deposits) (hs : DepositSigned E d.data)
    (hnew : UnknownKey s d.data.public_key)
    (hall : ∀ x ∈ b.body.deposits, x.data.public_key = d.data.public_key →
      E.max_effective_balance ≤ x.data.amount) :
    ∃ i, ∀ t, Follows E f s₁ t → nextFreeEpoch E t < FAR_FUTURE_EPOCH →
      (∃ v, t.validators[i]? = some v ∧ v.public_key = d.data.public_key) ∧
      (epochOf E s₁.slot < epochOf E t.slot →
        ∃ v, t.validators[i]? = some v ∧ v.activation_eligibility_epoch = epochOf E s₁.slot + 1) ∧
      (epochOf E s₁.slot < t.finalized_checkpoint.epoch → ∀ u, Follows E f t u →
        epochOf E t.slot + turn E f t i < epochOf E u.slot →
        nextFreeEpoch E u < FAR_FUTURE_EPOCH →
        ∃ v, u.validators[i]? = some v ∧ v.public_key = d.data.public_key ∧
          v.activation_epoch ≤ epochOf E t.slot + turn E f t i + 1 + E.max_seed_lookahead) := by
  obtain ⟨i, hi⟩ := block_enrols ho.config ho.balances hmax hf h hd hs hnew hall
  refine ⟨i, fun t ht hfar => ?_⟩
  have ho₁ := (block_turn ho h).1
  have hot := follows_orderly ho₁ ht
  have hslots := follows_slot ht
  have hmono : epochOf E s₁.slot ≤ epochOf E t.slot := Nat.div_le_div_right hslots
  have hb : epochOf E s₁.slot + 1 < FAR_FUTURE_EPOCH := by
    unfold nextFreeEpoch at hfar; omega
  obtain ⟨v, hv, hkey, hst⟩ := follows_coming hb hf ho₁ hi ht
  refine ⟨⟨v, hv, hkey⟩, fun hlt => ?_, fun hfin u hu hlate hfar' => ?_⟩
  · rcases hst with ⟨r, -⟩ | ⟨-, r, -⟩
    · omega
    · exact ⟨v, hv, r⟩
  · have hle := (orderly_proper hot).finalized
    obtain ⟨w, hw, hstep⟩ := (follows_reg ho.config hu).1 i v hv
    rcases hst with ⟨r, -⟩ | ⟨-, r, r' | r'⟩
    · omega
    · obtain ⟨w', hw', ha⟩ := C93_in_time hot hk ⟨v, hv, by omega, r'⟩ hu hlate hfar'
      rw [hw] at hw'; cases hw'
      exact ⟨w, hw, hstep.key.trans hkey, ha⟩
    · refine ⟨w, hw, hstep.key.trans hkey, ?_⟩
      rw [hstep.activation (by omega)]
      unfold nextFreeEpoch at r'
      omega

/-! ## The hypotheses hold of a concrete run -/

/-- Short epochs, and validators with one increment of stake. -/
def joinEnv : Env :=
  { Toy.env with effective_balance_increment := 32000000000, slots_per_epoch := 2 }

/-- One active validator in epoch 10, and a deposit is due. -/
def joinStart : State := { Toy.state 1 20 with
  eth1_deposit_index := 11
  eth1_data := ⟨Toy.root 32000000000, 12, Toy.root 2⟩ }

/-- The deposit of the full stake, for the key 9. -/
def joinDeposit : Deposit where
  proof := []
  data := {
    public_key := Toy.pk 9
    withdrawal_credentials := zeroBytes 32
    amount := 32000000000
    signature := Toy.goodSig }

/-- A block with it. -/
def joinBlock : BeaconBlock :=
  Toy.block joinStart { Toy.body joinStart with deposits := [joinDeposit] }

/-- The state after the block, and `n` slots later. -/
def joined : Nat → State
  | 0 => finalState (process_block joinEnv .Phase0 joinBlock) joinStart
  | n + 1 => finalState (process_slots joinEnv .Phase0 ((joined n).slot + 1)) (joined n)

theorem join_orderly : Orderly joinEnv .Phase0 joinStart := by
  refine ⟨by constructor <;> decide +kernel, by constructor <;> decide +kernel, by decide,
    ⟨by decide, fun h => absurd rfl h⟩,
    by decide, by decide, Or.inl (by decide), by decide, ?_, trivial, trivial, trivial⟩
  intro j hj
  match j with
  | 0 => cases hj
  | 1 => cases hj
  | 2 => cases hj
  | 3 => cases hj
  | k + 4 => simp [joinStart, Toy.state] at hj

theorem join_accepted :
    process_block joinEnv .Phase0 joinBlock joinStart = .ok () (joined 0) :=
  Toy.ok_of_succeeds (by decide +kernel)

theorem join_follows : ∀ n m, n + m ≤ 8 → Follows joinEnv .Phase0 (joined n) (joined (n + m)) := by
  have h : ∀ n, n < 8 → Toy.succeeds (process_slots joinEnv .Phase0 ((joined n).slot + 1))
      (joined n) = true := by decide +kernel
  intro n m
  induction m with
  | zero => exact fun _ => .start
  | succ m ih => exact fun hm => (ih (by omega)).slot (Toy.ok_of_succeeds (h _ (by omega)))

/-- The deposit is signed, and its key new. -/
example : DepositSigned joinEnv joinDeposit.data ∧ UnknownKey joinStart joinDeposit.data.public_key ∧
    joinEnv.max_effective_balance ≤ joinDeposit.data.amount := by
  refine ⟨by unfold DepositSigned; decide +kernel, by unfold UnknownKey; decide +kernel, by decide⟩

/-- The epoch of the block is 10; six slots later epoch 11 is final, and the new validator 1 is on the
queue since then. -/
example : epochOf joinEnv (joined 0).slot = 10 ∧ (joined 6).finalized_checkpoint.epoch = 11 ∧
    (joined 8).validators.map (·.public_key) = [Toy.pk 0, Toy.pk 9] ∧
    (joined 8).validators.map (·.activation_eligibility_epoch) = [0, 11] ∧
    (joined 8).validators.map (·.activation_epoch) = [0, 17] := by decide +kernel

/-- The theorem, of this run. -/
example : ∃ i v, (joined 8).validators[i]? = some v ∧ v.public_key = Toy.pk 9 ∧
    v.activation_epoch ≤ 13 + turn joinEnv .Phase0 (joined 6) i + 1 + 4 := by
  obtain ⟨i, hi⟩ := C102_deposit_is_honoured join_orderly (by decide) (by decide) (by decide)
    join_accepted (d := joinDeposit) (by decide +kernel) (by unfold DepositSigned; decide +kernel)
    (by unfold UnknownKey; decide +kernel) (by decide +kernel)
  obtain ⟨-, -, h⟩ := hi (joined 6) (join_follows 0 6 (by decide)) (by decide +kernel)
  have h0 : epochOf joinEnv (joined 6).slot = 13 := by decide +kernel
  have h1 : epochOf joinEnv (joined 8).slot = 14 := by decide +kernel
  have h2 : ∀ i, turn joinEnv .Phase0 (joined 6) i = 0 := by
    intro i
    unfold turn ahead
    rw [if_neg (by decide)]
    have : (List.range (joined 6).validators.length).filter (fun j =>
        WaitsInQueue (joined 6) j ∧ Before (joined 6) j i) = [] := by
      rw [List.filter_eq_nil_iff]
      intro j hj
      have hw : ∀ j ∈ List.range (joined 6).validators.length, ¬ WaitsInQueue (joined 6) j := by
        decide +kernel
      simpa using fun h => absurd h (hw j hj)
    rw [this]
    simp
  obtain ⟨v, hv, hk, ha⟩ := h (by decide +kernel) (joined 8) (join_follows 6 2 (by decide))
    (by rw [h0, h1, h2]; decide) (by decide +kernel)
  rw [h0] at ha
  exact ⟨i, v, hv, hk, ha⟩

end Verif.Props
