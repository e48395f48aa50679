import Verif.Proofs.Rewards
import Verif.Proofs.Rotation
import Verif.Proofs.Registry

/-! # The attestations that phase0 records -/

namespace Verif

open Spec

/-- What is recorded in addition belongs to its epoch. -/
def Records (E : Env) (s s' : State) : Prop :=
  s'.slot = s.slot ∧
  (∀ a ∈ s'.previous_epoch_attestations, a ∈ s.previous_epoch_attestations ∨
    BelongsTo E (previousEpoch E s) a) ∧
  (∀ a ∈ s'.current_epoch_attestations, a ∈ s.current_epoch_attestations ∨
    BelongsTo E (epochOf E s.slot) a)

theorem recordsPre {E : Env} : Preorder' (Records E) := by
  refine ⟨fun _ => ⟨rfl, fun _ h => Or.inl h, fun _ h => Or.inl h⟩, ?_⟩
  rintro s t u ⟨h1, h2, h3⟩ ⟨g1, g2, g3⟩
  refine ⟨g1.trans h1, fun a ha => ?_, fun a ha => ?_⟩
  · rcases g2 a ha with h | h
    · exact h2 a h
    · unfold previousEpoch at *
      rw [h1] at h
      exact Or.inr h
  · rcases g3 a ha with h | h
    · exact h3 a h
    · rw [h1] at h
      exact Or.inr h

theorem records_mod {α : Type} {E : Env} {W : List Field} {m : M α} (h : Modifies W m)
    (h1 : Field.slot ∉ W) (h2 : Field.previous_epoch_attestations ∉ W)
    (h3 : Field.current_epoch_attestations ∉ W) : Pres (Records E) m :=
  Pres.mono h fun s s' h => by
    have e1 : s'.slot = s.slot := h _ h1
    have e2 : s'.previous_epoch_attestations = s.previous_epoch_attestations := h _ h2
    have e3 : s'.current_epoch_attestations = s.current_epoch_attestations := h _ h3
    unfold Records
    rw [e1, e2, e3]
    exact recordsPre.refl s

theorem attestation_records {E : Env} {a : Attestation} :
    Pres (Records E) (process_attestation E .Phase0 a) := by
  unfold process_attestation Phase0.process_attestation
  intro s
  have r0 := (recordsPre (E := E)).refl s
  simp only [wps]
  refine ⟨fun cur hcur => ⟨fun _ _ => ⟨fun idx _ => ⟨fun _ _ => ⟨fun delay hdelay => ⟨fun p _ => ?_,
    fun _ _ => r0⟩, fun _ _ => r0⟩, fun _ _ => r0⟩, fun _ _ => r0⟩, fun _ _ => r0⟩, fun _ _ => r0⟩
  simp only [check_attestation_data, compute_epoch_at_slot, run, previous_epoch_eq_ok,
    current_epoch_eq_ok] at hcur
  obtain ⟨_, ⟨rfl, -⟩, _, ⟨rfl, -⟩, h1, _, ⟨rfl, -⟩, h2, _, ⟨rfl, -⟩, _, ⟨rfl, -⟩, h3, rfl⟩ := hcur
  rw [sub_eq_ok] at hdelay
  obtain ⟨rfl, -⟩ := hdelay
  have h2 : a.data.target.epoch = epochOf E a.data.slot := by simpa [epochOf] using h2
  have h3 : a.data.slot + E.min_attestation_inclusion_delay ≤ s.slot ∧
      s.slot ≤ a.data.slot + E.slots_per_epoch := by simpa using h3
  have hb : ∀ e, a.data.target.epoch = e → BelongsTo E e
      ⟨a.aggregation_bits, a.data, s.slot - a.data.slot, p⟩ := fun e he =>
    ⟨he, h2 ▸ he, by show _ ≤ s.slot - _; omega, by show s.slot - _ ≤ _; omega⟩
  constructor
  · intro hc
    have hc : a.data.target.epoch = epochOf E s.slot := by simpa using hc
    refine ⟨fun _ _ => ?_, fun _ _ => r0⟩
    refine ⟨rfl, fun x hx => Or.inl hx, fun x hx => ?_⟩
    rcases List.mem_append.1 hx with hx | hx
    · exact Or.inl hx
    · rw [List.mem_singleton] at hx
      subst hx
      exact Or.inr (hb _ hc)
  · intro hc
    have hc : a.data.target.epoch = previousEpoch E s := by
      have h1 : a.data.target.epoch = epochOf E s.slot - 1 ∨ a.data.target.epoch = epochOf E s.slot := by
        rw [or_iff_not_imp_left]
        simpa using h1
      have : a.data.target.epoch ≠ epochOf E s.slot := by simpa using hc
      exact h1.resolve_right this
    refine ⟨fun _ _ => ?_, fun _ _ => r0⟩
    refine ⟨rfl, fun x hx => ?_, fun x hx => Or.inl hx⟩
    rcases List.mem_append.1 hx with hx | hx
    · exact Or.inl hx
    · rw [List.mem_singleton] at hx
      subst hx
      exact Or.inr (hb _ hc)

theorem operations_records {E : Env} {b : BeaconBlockBody} :
    Pres (Records E) (process_operations E .Phase0 b) := by
  unfold process_operations
  walk recordsPre [records_mod proposer_slashing_mod (by decide) (by decide) (by decide),
    records_mod attester_slashing_mod (by decide) (by decide) (by decide), attestation_records,
    records_mod deposit_mod (by decide) (by decide) (by decide),
    records_mod voluntary_exit_mod (by decide) (by decide) (by decide)]

theorem block_records {E : Env} {b : BeaconBlock} :
    Pres (Records E) (process_block E .Phase0 b) := by
  unfold process_block
  walk recordsPre [records_mod header_mod (by decide) (by decide) (by decide),
    records_mod block_payload_mod (by decide) (by decide) (by decide),
    records_mod randao_mod (by decide) (by decide) (by decide),
    records_mod eth1_mod (by decide) (by decide) (by decide), operations_records]

theorem genesis_pending {E : Env} {f : Fork} {h : Bytes32} {t : Nat} {ds : List Deposit}
    {p : Option ExecutionPayloadHeader} {s : State}
    (hs : initialize_beacon_state_from_eth1 E f h t ds p = .ok s) :
    s.previous_epoch_attestations = [] ∧ s.current_epoch_attestations = [] := by
  unfold initialize_beacon_state_from_eth1 genesis_candidate at hs
  simp only [run] at hs
  obtain ⟨_, ⟨gt, _, rfl⟩, hs⟩ := hs
  rw [runLocal_eq_ok] at hs
  have hdep : ∀ (ds : List Deposit) (l : List DepositData),
      Modifies [.eth1_data, .eth1_deposit_index, .validators, .balances,
        .previous_epoch_participation, .current_epoch_participation, .inactivity_scores,
        .pending_balance_deposits] (genesis_deposits E f l ds) := by
    intro ds
    induction ds with
    | nil => intro l; unfold genesis_deposits; mods
    | cons d ds ih => intro l; unfold genesis_deposits; mods [deposit_mod, ih _]
  have hm : Modifies [.eth1_data, .eth1_deposit_index, .validators, .balances,
      .previous_epoch_participation, .current_epoch_participation, .inactivity_scores,
      .pending_balance_deposits, .genesis_validators_root, .current_sync_committee,
      .next_sync_committee] (genesis_fill E f ds) := by
    unfold genesis_fill genesis_pending_deposits genesis_activate genesis_sync_committees
    mods [hdep _ _, increase_mod]
  have hm := hm.ok hs
  exact ⟨hm .previous_epoch_attestations (by decide), hm .current_epoch_attestations (by decide)⟩

theorem chain_records {E : Env} {f : Fork} {s : State} {log : List (Root × Root)}
    (h : ChainLog E f s log) (hf : f = .Phase0) :
    (∀ a ∈ s.previous_epoch_attestations, BelongsTo E (previousEpoch E s) a) ∧
    ∀ a ∈ s.current_epoch_attestations, BelongsTo E (epochOf E s.slot) a := by
  induction h with
  | genesis h =>
    obtain ⟨h1, h2⟩ := genesis_pending h
    rw [h1, h2]
    simp
  | slot hlog hslot ih =>
    rename_i f s s' log
    subst hf
    obtain ⟨i1, i2⟩ := ih rfl
    obtain ⟨s₁, s₂, h1, h2, h3, h4, rfl⟩ := slot_step_eq_ok.1 (process_slots_one hslot)
    have m := slot_mod.ok h1
    have m1 : s₁.current_epoch_attestations = s.current_epoch_attestations :=
      m .current_epoch_attestations (by decide)
    have m2 : s₁.previous_epoch_attestations = s.previous_epoch_attestations :=
      m .previous_epoch_attestations (by decide)
    have hd : epochOf E (s.slot + 1) =
        epochOf E s.slot + if E.slots_per_epoch ∣ s.slot + 1 then 1 else 0 := Nat.succ_div
    rcases h4 with ⟨hl, h4⟩ | ⟨hl, rfl⟩
    · obtain ⟨r1, -⟩ := epoch_rotates h4
      obtain ⟨r1, r2⟩ := r1 rfl
      rw [m1] at r1
      rw [if_pos (Nat.dvd_of_mod_eq_zero hl)] at hd
      dsimp only [previousEpoch]
      rw [r1, r2, hd, Nat.add_sub_cancel]
      exact ⟨i2, by simp⟩
    · rw [if_neg (fun h => hl (Nat.mod_eq_zero_of_dvd h)), Nat.add_zero] at hd
      unfold previousEpoch at *
      dsimp only
      rw [m1, m2, hd]
      exact ⟨i1, i2⟩
  | block b hlog ih =>
    subst hf
    obtain ⟨i1, i2⟩ := ih rfl
    obtain ⟨h1, h2, h3⟩ := (block_records (E := E) (b := b)).final _
    refine ⟨fun a ha => ?_, fun a ha => ?_⟩
    · unfold previousEpoch at *
      rw [h1]
      rcases h2 a ha with h | h
      · exact i1 a h
      · exact h
    · rw [h1]
      rcases h3 a ha with h | h
      · exact i2 a h
      · exact h
  | upgrade hlog ho hu ih =>
    subst hf
    simp only [Fork.ord] at ho
    omega

end Verif
