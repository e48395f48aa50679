import Verif.Proofs.Parts
import Verif.Proofs.Proposer
import Verif.Props.Requests
import Verif.Props.Attestations
import Verif.Props.Slashing
import Verif.Props.Operations
import Verif.Props.Registry
import Verif.Proofs.Rewards

/-! # What is left of each part of a block when the whole block has been processed -/

namespace Verif

open Spec

/-! ## The phases of a block -/

/-- What comes after the voluntary exits. -/
def laterParts (E : Env) (f : Fork) (body : BeaconBlockBody) : List (M Unit) :=
  (if Fork.withdraws f then
    body.bls_to_execution_changes.map (process_bls_to_execution_change E) else []) ++
  (if f = .Electra then
    body.execution_payload.withdrawal_requests.map
      (Electra.process_execution_layer_withdrawal_request E) ++
    body.execution_payload.deposit_receipts.map (Electra.process_deposit_receipt E) ++
    body.consolidations.map (Electra.process_consolidation E) else [])

theorem block_phases {E : Env} (hmax : 0 < E.max_deposits) {f : Fork} {b : BeaconBlock}
    {s s' : State} (h : process_block E f b s = .ok () s') :
    ∃ a0 a1 a2 a3 a4 a5 a6, Runs (openingParts E f s b) s a0 ∧ RightCount E f a0 b.body ∧
      Runs (b.body.proposer_slashings.map (process_proposer_slashing E f)) a0 a1 ∧
      Runs (b.body.attester_slashings.map (process_attester_slashing E f)) a1 a2 ∧
      Runs (b.body.attestations.map (process_attestation E f)) a2 a3 ∧
      Runs (b.body.deposits.map (process_deposit E f)) a3 a4 ∧
      Runs (b.body.voluntary_exits.map (process_voluntary_exit E f)) a4 a5 ∧
      Runs (laterParts E f b.body) a5 a6 ∧ Runs (closingParts E f b.body) a6 s' := by
  obtain ⟨t, u, h1, h2, h3, h4⟩ := (block_parts hmax).1 h
  unfold operationParts at h3
  obtain ⟨a6, h3, g7⟩ := runs_append.1 h3
  obtain ⟨a5, h3, g6⟩ := runs_append.1 h3
  obtain ⟨a4, h3, g5⟩ := runs_append.1 h3
  obtain ⟨a3, h3, g4⟩ := runs_append.1 h3
  obtain ⟨a2, h3, g3⟩ := runs_append.1 h3
  obtain ⟨a1, g1, g2⟩ := runs_append.1 h3
  exact ⟨t, a1, a2, a3, a4, a5, u, h1, h2, g1, g2, g3, g4, g5, runs_append.2 ⟨a6, g6, g7⟩, h4⟩

/-! ## What all the parts keep -/

theorem opening_all {P : M Unit → Prop} {E : Env} {f : Fork} {s : State} {b : BeaconBlock}
    (h1 : P (process_block_header E f b))
    (h2 : Fork.withdraws f = true → P (process_withdrawals E f b.body.execution_payload))
    (h3 : P (process_execution_payload E f b.body)) (h4 : P (process_randao E b.body))
    (h5 : P (process_eth1_data E b.body)) : ∀ m ∈ openingParts E f s b, P m := by
  intro m hm
  simp only [openingParts, List.mem_append, List.mem_cons, List.not_mem_nil, or_false] at hm
  rcases hm with ((rfl | hm) | hm) | rfl | rfl
  · exact h1
  · split at hm
    · rw [List.mem_singleton] at hm; subst hm; exact h2 ‹_›
    · cases hm
  · split at hm
    · rw [List.mem_singleton] at hm; subst hm; exact h3
    · cases hm
  · exact h4
  · exact h5

theorem map_all {α : Type} {P : M Unit → Prop} {g : α → M Unit} {l : List α}
    (h : ∀ x ∈ l, P (g x)) : ∀ m ∈ l.map g, P m := by
  intro m hm
  obtain ⟨x, hx, rfl⟩ := List.mem_map.1 hm
  exact h x hx

theorem later_all {P : M Unit → Prop} {E : Env} {f : Fork} {body : BeaconBlockBody}
    (h1 : Fork.withdraws f = true → ∀ x ∈ body.bls_to_execution_changes,
      P (process_bls_to_execution_change E x))
    (h2 : f = .Electra → ∀ x ∈ body.execution_payload.withdrawal_requests,
      P (Electra.process_execution_layer_withdrawal_request E x))
    (h3 : f = .Electra → ∀ x ∈ body.execution_payload.deposit_receipts,
      P (Electra.process_deposit_receipt E x))
    (h4 : f = .Electra → ∀ x ∈ body.consolidations, P (Electra.process_consolidation E x)) :
    ∀ m ∈ laterParts E f body, P m := by
  intro m hm
  simp only [laterParts, List.mem_append] at hm
  rcases hm with hm | hm
  · split at hm
    · exact map_all (h1 ‹_›) m hm
    · cases hm
  · split at hm
    · rename_i hf
      simp only [List.mem_append] at hm
      rcases hm with (hm | hm) | hm
      · exact map_all (h2 hf) m hm
      · exact map_all (h3 hf) m hm
      · exact map_all (h4 hf) m hm
    · cases hm

theorem closing_all {P : M Unit → Prop} {E : Env} {f : Fork} {body : BeaconBlockBody}
    (h : f ≠ .Phase0 → P (process_sync_aggregate E body.sync_aggregate)) :
    ∀ m ∈ closingParts E f body, P m := by
  intro m hm
  unfold closingParts at hm
  split at hm
  · cases hm
  · rw [List.mem_singleton] at hm; subst hm; exact h ‹_›

theorem runs_inv {J : State → Prop} {ms : List (M Unit)}
    (h : ∀ m ∈ ms, ∀ t u, J t → m t = .ok () u → J u) {s s' : State} (hs : Runs ms s s')
    (hJ : J s) : J s' := by
  induction ms generalizing s with
  | nil => rw [runs_nil] at hs; subst hs; exact hJ
  | cons m ms ih =>
    obtain ⟨t, h1, h2⟩ := hs
    exact ih (fun m' hm => h m' (by simp [hm])) h2 (h m (by simp) _ _ hJ h1)

theorem runs_mod {W : List Field} {ms : List (M Unit)} (h : ∀ m ∈ ms, Modifies W m)
    {s s' : State} (hs : Runs ms s s') : ChangesOnly W s s' :=
  runs_pres (changesPre W) (fun m hm => (h m hm).toOk) hs

/-! ## The state as the parts see it -/

/-- The fields no part of a block changes. -/
def stillFields : List Field :=
  [.slot, .fork, .genesis_validators_root, .block_roots, .current_justified_checkpoint,
   .previous_justified_checkpoint, .current_sync_committee]

/-- The state in the midst of processing a block. -/
structure Inside (E : Env) (f : Fork) (s t : State) : Prop where
  history : History E f s t
  eff : Weights s t
  still : ∀ x ∈ stillFields, x.same s t

theorem inside_part {E : Env} {f : Fork} {m : M Unit} (h1 : EntryPoint E f m) (h2 : Pres Weights m)
    {W : List Field} (h3 : Modifies W m) (hW : ∀ x ∈ stillFields, x ∉ W) {s t u : State}
    (h : Inside E f s t) (hm : m t = .ok () u) : Inside E f s u := by
  refine ⟨?_, weightsPre.trans h.eff (h2.toOk.ok hm), fun x hx => ?_⟩
  · have := History.call h.history h1
    unfold finalState at this
    rw [hm] at this
    exact this
  · have g : ChangesOnly W t u := h3.toOk.ok hm
    exact Field.same_trans x (h.still x hx) (g x (hW x hx))

theorem Inside.start {E : Env} {f : Fork} {s : State} : Inside E f s s :=
  ⟨.start, weightsPre.refl s, fun x _ => Field.same_refl x s⟩

section Parts
variable {E : Env} {f : Fork} {s t u : State} {b : BeaconBlock} {body : BeaconBlockBody}

theorem inside_opening : ∀ m ∈ openingParts E f s b, ∀ t u, Inside E f s t → m t = .ok () u →
    Inside E f s u :=
  opening_all
    (fun _ _ => inside_part (.process_block_header _) (weights_mod header_mod (by decide)) header_mod
      (by decide))
    (fun _ _ _ => inside_part (.process_withdrawals _) (weights_mod withdrawals_mod (by decide))
      withdrawals_mod (by decide))
    (fun _ _ => inside_part (.process_execution_payload _) (weights_mod payload_mod (by decide))
      payload_mod (by decide))
    (fun _ _ => inside_part (.process_randao _) (weights_mod randao_mod (by decide)) randao_mod
      (by decide))
    (fun _ _ => inside_part (.process_eth1_data _) (weights_mod eth1_mod (by decide)) eth1_mod
      (by decide))

theorem inside_proposer_slashing {op : ProposerSlashing} (h : Inside E f s t)
    (hm : process_proposer_slashing E f op t = .ok () u) : Inside E f s u :=
  inside_part (.process_proposer_slashing _) proposer_slashing_weights proposer_slashing_mod
    (by decide) h hm

theorem inside_attester_slashing {op : AttesterSlashing} (h : Inside E f s t)
    (hm : process_attester_slashing E f op t = .ok () u) : Inside E f s u :=
  inside_part (.process_attester_slashing _) attester_slashing_weights attester_slashing_mod
    (by decide) h hm

theorem inside_attestation {a : Attestation} (h : Inside E f s t)
    (hm : process_attestation E f a t = .ok () u) : Inside E f s u :=
  inside_part (.process_attestation _) (weights_mod attestation_mod (by decide)) attestation_mod
    (by decide) h hm

theorem inside_deposit {d : Deposit} (h : Inside E f s t)
    (hm : process_deposit E f d t = .ok () u) : Inside E f s u :=
  inside_part (.process_deposit _) deposit_weights deposit_mod (by decide) h hm

theorem inside_exit {op : SignedVoluntaryExit} (h : Inside E f s t)
    (hm : process_voluntary_exit E f op t = .ok () u) : Inside E f s u :=
  inside_part (.process_voluntary_exit _) voluntary_exit_weights voluntary_exit_mod (by decide) h hm

theorem inside_later : ∀ m ∈ laterParts E f body, ∀ t u, Inside E f s t → m t = .ok () u →
    Inside E f s u :=
  later_all
    (fun _ _ _ _ _ => inside_part (.process_bls_to_execution_change _) bls_change_weights
      bls_change_mod (by decide))
    (fun hf _ _ _ _ => inside_part (.process_execution_layer_withdrawal_request _ hf) request_weights
      withdrawal_request_mod (by decide))
    (fun hf _ _ _ _ => inside_part (.process_deposit_receipt _ hf) receipt_weights
      deposit_receipt_mod (by decide))
    (fun hf _ _ _ _ => inside_part (.process_consolidation _ hf) consolidation_weights
      consolidation_mod (by decide))

theorem inside_closing : ∀ m ∈ closingParts E f body, ∀ t u, Inside E f s t → m t = .ok () u →
    Inside E f s u :=
  closing_all fun _ _ _ => inside_part (.process_sync_aggregate _)
    (weights_mod sync_aggregate_mod (by decide)) sync_aggregate_mod (by decide)

end Parts

/-- The states of a block between its phases. -/
structure Phases (E : Env) (f : Fork) (b : BeaconBlock) (s a0 a1 a2 a3 a4 a5 a6 s' : State) :
    Prop where
  opening : Runs (openingParts E f s b) s a0
  count : RightCount E f a0 b.body
  proposers : Runs (b.body.proposer_slashings.map (process_proposer_slashing E f)) a0 a1
  attesters : Runs (b.body.attester_slashings.map (process_attester_slashing E f)) a1 a2
  votes : Runs (b.body.attestations.map (process_attestation E f)) a2 a3
  deposits : Runs (b.body.deposits.map (process_deposit E f)) a3 a4
  exits : Runs (b.body.voluntary_exits.map (process_voluntary_exit E f)) a4 a5
  later : Runs (laterParts E f b.body) a5 a6
  closing : Runs (closingParts E f b.body) a6 s'
  i0 : Inside E f s a0
  i1 : Inside E f s a1
  i2 : Inside E f s a2
  i3 : Inside E f s a3
  i4 : Inside E f s a4
  i5 : Inside E f s a5
  i6 : Inside E f s a6
  i7 : Inside E f s s'

theorem phases {E : Env} (hmax : 0 < E.max_deposits) {f : Fork} {b : BeaconBlock}
    {s s' : State} (h : process_block E f b s = .ok () s') :
    ∃ a0 a1 a2 a3 a4 a5 a6, Phases E f b s a0 a1 a2 a3 a4 a5 a6 s' := by
  obtain ⟨a0, a1, a2, a3, a4, a5, a6, h0, hc, h1, h2, h3, h4, h5, h6, h7⟩ := block_phases hmax h
  have i0 := runs_inv (J := Inside E f s) inside_opening h0 .start
  have i1 := runs_inv (J := Inside E f s) (map_all fun _ _ _ _ => inside_proposer_slashing) h1 i0
  have i2 := runs_inv (J := Inside E f s) (map_all fun _ _ _ _ => inside_attester_slashing) h2 i1
  have i3 := runs_inv (J := Inside E f s) (map_all fun _ _ _ _ => inside_attestation) h3 i2
  have i4 := runs_inv (J := Inside E f s) (map_all fun _ _ _ _ => inside_deposit) h4 i3
  have i5 := runs_inv (J := Inside E f s) (map_all fun _ _ _ _ => inside_exit) h5 i4
  have i6 := runs_inv (J := Inside E f s) inside_later h6 i5
  have i7 := runs_inv (J := Inside E f s) inside_closing h7 i6
  exact ⟨a0, a1, a2, a3, a4, a5, a6, h0, hc, h1, h2, h3, h4, h5, h6, h7, i0, i1, i2, i3, i4, i5, i6,
    i7⟩

/-! ## The proposer -/

theorem inside_proposer {E : Env} (hE : SaneConfig E) {f : Fork} {s t : State}
    (hreg : s.validators.length ≤ 2 ^ 40) (hslot : s.slot < 2 ^ 63)
    (hV : E.min_seed_lookahead + 2 < E.epochs_per_historical_vector) (h : Inside E f s t) :
    get_beacon_proposer_index E t = get_beacon_proposer_index E s := by
  refine proposer_decided hE (history_pres (dutyPre E) (fun _ => entry_duty) h.history)
    (history_pres (mixPre E) (fun _ => entry_mix) h.history) h.eff hreg ?_ hV
  have : epochOf E s.slot ≤ s.slot := Nat.div_le_self _ _
  unfold FAR_FUTURE_EPOCH; omega

/-- The proposer named in an accepted block is the one every part of the block sees. -/
theorem Phases.proposer {E : Env} (hE : SaneConfig E) {f : Fork} {b : BeaconBlock}
    {s a0 a1 a2 a3 a4 a5 a6 s' : State} (hp : Phases E f b s a0 a1 a2 a3 a4 a5 a6 s')
    (hreg : s.validators.length ≤ 2 ^ 40) (hslot : s.slot < 2 ^ 63)
    (hV : E.min_seed_lookahead + 2 < E.epochs_per_historical_vector) {t : State}
    (h : Inside E f s t) : get_beacon_proposer_index E t = .ok b.proposer_index := by
  rw [inside_proposer hE hreg hslot hV h]
  have h0 := hp.opening
  unfold openingParts at h0
  rw [List.append_assoc, List.append_assoc, runs_append] at h0
  obtain ⟨t, h1, -⟩ := h0
  exact (process_block_header_eq_ok.1 (runs_single.1 h1)).1.proposer

/-! ## Registry entries the block does not name -/

section Entries
variable {E : Env} {f : Fork} {i : Nat} {v : Validator} {t u : State}

theorem slash_other (h : slash_validator E f j w t = .ok () u) (hj : i ≠ j) :
    u.validators[i]? = t.validators[i]? := by
  obtain ⟨p, share, v, v₁, -, -, h⟩ := slash_validator_effect h
  exact SlashEffect_other h hj

theorem proposer_slashing_other {op : ProposerSlashing}
    (h : process_proposer_slashing E f op t = .ok () u)
    (hi : op.signed_header_1.message.proposer_index ≠ i) :
    u.validators[i]? = t.validators[i]? :=
  slash_other (process_proposer_slashing_eq_ok.1 h).2.2 (Ne.symm hi)

theorem mem_culprits {E : Env} {s : State} {a b : IndexedAttestation} {i : Nat} :
    i ∈ culprits E s a b ↔ i ∈ a.attesting_indices ∧ i ∈ b.attesting_indices ∧
      ∃ v, s.validators[i]? = some v ∧ Slashable v (epochOf E s.slot) := by
  unfold culprits
  simp only [List.mem_filter, List.mem_range, Bool.and_eq_true, decide_eq_true_eq]
  constructor
  · rintro ⟨h1, ⟨h2, h3⟩, h4⟩
    rw [List.getElem?_eq_getElem h1] at h4 ⊢
    exact ⟨h2, h3, _, rfl, by simpa using h4⟩
  · rintro ⟨h2, h3, v, hv, h4⟩
    refine ⟨(List.getElem?_eq_some_iff.1 hv).1, ⟨h2, h3⟩, ?_⟩
    rw [hv]; simpa using h4

theorem attester_slashing_other {op : AttesterSlashing}
    (h : process_attester_slashing E f op t = .ok () u)
    (hi : ¬ (i ∈ op.attestation_1.attesting_indices ∧ i ∈ op.attestation_2.attesting_indices)) :
    u.validators[i]? = t.validators[i]? :=
  (Props.C14_attester_slashing_slashes E f op t u h).2 i fun hc =>
    hi ⟨(mem_culprits.1 hc).1, (mem_culprits.1 hc).2.1⟩

theorem set_other {l : List Validator} {j : Nat} {x : Validator} (h : j ≠ i) :
    (l.set j x)[i]? = l[i]? := List.getElem?_set_ne h

theorem deposit_effect_other {d : DepositData} (h : DepositEffect E f d t u)
    (hv : t.validators[i]? = some v) : u.validators[i]? = some v := by
  cases h with
  | topUp j b known balance fits => exact hv
  | added new signed =>
    have := (List.getElem?_eq_some_iff.1 hv).1
    unfold withValidator
    split <;> exact (List.getElem?_append_left this).trans hv
  | ignored => exact hv

theorem electra_deposit_effect_other {d : DepositData} (h : ElectraDepositEffect E d t u)
    (hv : t.validators[i]? = some v) (hk : d.public_key ≠ v.public_key) :
    u.validators[i]? = some v := by
  cases h with
  | topUp j w known val => exact hv
  | switch j b w known val signed switch balance =>
    have hj : j ≠ i := by
      rintro rfl
      obtain ⟨x, hx, hk'⟩ := known.1
      rw [hv] at hx; cases hx
      exact hk hk'.symm
    exact (List.getElem?_set_ne hj).trans hv
  | added new signed =>
    have := (List.getElem?_eq_some_iff.1 hv).1
    exact (List.getElem?_append_left this).trans hv

theorem deposit_other (hE : SaneConfig E) {d : Deposit} (h : process_deposit E f d t = .ok () u)
    (hv : t.validators[i]? = some v) (hk : f = .Electra → d.data.public_key ≠ v.public_key) :
    u.validators[i]? = some v := by
  obtain ⟨-, -, h⟩ := process_deposit_ok_iff.1 h
  by_cases hf : f = .Electra
  · subst hf
    exact electra_deposit_effect_other (electra_apply_deposit_eq_ok.1 h) hv (hk rfl)
  · exact deposit_effect_other
      ((apply_deposit_eq_ok hf (Nat.pos_iff_ne_zero.1 hE.effective_balance_increment)).1 h) hv

theorem bls_change_other {op : SignedBlsToExecutionChange}
    (h : process_bls_to_execution_change E op t = .ok () u) (hi : op.message.validator_index ≠ i) :
    u.validators[i]? = t.validators[i]? := by
  obtain ⟨w, c, -, -, rfl⟩ := (Props.C46_credential_change_iff E op t u).1 h
  exact List.getElem?_set_ne hi

theorem request_other {r : ExecutionLayerWithdrawalRequest}
    (h : Electra.process_execution_layer_withdrawal_request E r t = .ok () u)
    (hv : t.validators[i]? = some v) (hk : r.validator_public_key ≠ v.public_key) :
    u.validators[i]? = some v := by
  cases Props.C69_request E r t u h with
  | leave j w epoch left request queued =>
    have hj : j ≠ i := by
      rintro rfl
      obtain ⟨x, hx, hk'⟩ := request.2.1.holder.1
      rw [hv] at hx; cases hx
      exact hk hk'.symm
    exact (List.getElem?_set_ne hj).trans hv
  | part => exact hv
  | ignored => exact hv

theorem receipt_other {r : DepositReceipt}
    (h : Electra.process_deposit_receipt E r t = .ok () u)
    (hv : t.validators[i]? = some v) (hk : r.public_key ≠ v.public_key) :
    u.validators[i]? = some v :=
  electra_deposit_effect_other ((Props.C69_receipt_iff E r t u).1 h) hv hk

theorem exit_other (hE : SaneConfig E) {op : SignedVoluntaryExit} (hs : t.slot < 2 ^ 63)
    (h : process_voluntary_exit E f op t = .ok () u) (hi : op.message.validator_index ≠ i) :
    u.validators[i]? = t.validators[i]? := by
  obtain ⟨-, h⟩ := (process_voluntary_exit_eq_ok (Nat.pos_iff_ne_zero.1 hE.slots_per_epoch.1)
    (by unfold U64_BOUND; omega)).1 h
  obtain ⟨v, v', h⟩ := Fork.initiate_validator_exit_effect h
  rw [h.state]
  exact List.getElem?_set_ne hi

theorem same_entry {W : List Field} {m : M Unit} (h : Modifies W m) (hW : Field.validators ∉ W)
    (hm : m t = .ok () u) : u.validators[i]? = t.validators[i]? := by
  have g : ChangesOnly W t u := h.toOk.ok hm
  rw [show u.validators = t.validators from g .validators hW]

end Entries

theorem Inside.slot {E : Env} {f : Fork} {s t : State} (h : Inside E f s t) : t.slot = s.slot :=
  h.still .slot (by decide)

/-- A registry entry that the block does not name is as it was. -/
theorem entry_kept {E : Env} (hE : SaneConfig E) (hmax : 0 < E.max_deposits) {f : Fork}
    {b : BeaconBlock} {s s' : State} (hslot : s.slot < 2 ^ 63)
    (h : process_block E f b s = .ok () s') {i : Nat} {v : Validator}
    (hv : s.validators[i]? = some v) (hn : ¬ Named f b.body i v.public_key) :
    s'.validators[i]? = some v := by
  obtain ⟨a0, a1, a2, a3, a4, a5, a6, hp⟩ := phases hmax h
  simp only [Named, not_or, not_exists, not_and] at hn
  obtain ⟨n1, n2, n3, n4, n5⟩ := hn
  have j0 : a0.validators[i]? = some v := by
    refine runs_inv (J := fun t => t.validators[i]? = some v) ?_ hp.opening hv
    exact opening_all
      (fun t u ht hm => (same_entry header_mod (by decide) hm).trans ht)
      (fun _ t u ht hm => (same_entry withdrawals_mod (by decide) hm).trans ht)
      (fun t u ht hm => (same_entry payload_mod (by decide) hm).trans ht)
      (fun t u ht hm => (same_entry randao_mod (by decide) hm).trans ht)
      (fun t u ht hm => (same_entry eth1_mod (by decide) hm).trans ht)
  have j1 : a1.validators[i]? = some v :=
    runs_inv (J := fun t => t.validators[i]? = some v)
      (map_all fun op ho t u ht hm => (proposer_slashing_other hm (n1 op ho)).trans ht)
      hp.proposers j0
  have j2 : a2.validators[i]? = some v :=
    runs_inv (J := fun t => t.validators[i]? = some v)
      (map_all fun op ho t u ht hm =>
        (attester_slashing_other hm fun hc => n2 op ho hc.1 hc.2).trans ht)
      hp.attesters j1
  have j3 : a3.validators[i]? = some v :=
    runs_inv (J := fun t => t.validators[i]? = some v)
      (map_all fun op ho t u ht hm => (same_entry attestation_mod (by decide) hm).trans ht)
      hp.votes j2
  have j4 : a4.validators[i]? = some v :=
    runs_inv (J := fun t => t.validators[i]? = some v)
      (map_all fun d hd t u ht hm => deposit_other hE hm ht fun hf => (n5 hf).1 d hd)
      hp.deposits j3
  have j5 : Inside E f s a5 ∧ a5.validators[i]? = some v :=
    runs_inv (J := fun t => Inside E f s t ∧ t.validators[i]? = some v)
      (map_all fun op ho t u ht hm => ⟨inside_exit ht.1 hm,
        (exit_other hE (by rw [ht.1.slot]; exact hslot) hm (n3 op ho)).trans ht.2⟩)
      hp.exits ⟨hp.i4, j4⟩
  have j6 : a6.validators[i]? = some v := by
    refine runs_inv (J := fun t => t.validators[i]? = some v) ?_ hp.later j5.2
    exact later_all
      (fun hf op ho t u ht hm => (bls_change_other hm (n4 hf op ho)).trans ht)
      (fun hf r hr t u ht hm => request_other hm ht ((n5 hf).2.1 r hr))
      (fun hf r hr t u ht hm => receipt_other hm ht ((n5 hf).2.2 r hr))
      (fun hf op ho t u ht hm =>
        absurd hm (Props.C69_consolidation_fails E hE.withdrawability_delay.1 op t u))
  refine runs_inv (J := fun t => t.validators[i]? = some v) ?_ hp.closing j6
  exact closing_all fun _ t u ht hm => (same_entry sync_aggregate_mod (by decide) hm).trans ht

/-! ## Balances the block does not touch -/

section Balances
variable {E : Env} {f : Fork} {i p : Nat} {t u : State}

theorem same_balance {W : List Field} {m : M Unit} (h : Modifies W m) (hW : Field.balances ∉ W)
    (hm : m t = .ok () u) : u.balances[i]? = t.balances[i]? := by
  have g : ChangesOnly W t u := h.toOk.ok hm
  rw [show u.balances = t.balances from g .balances hW]

theorem modify_other {l : List Nat} {j : Nat} {g : Nat → Nat} (h : j ≠ i) :
    (l.modify j g)[i]? = l[i]? := by
  rw [List.getElem?_modify]; simp [h]

theorem slash_balance (h : slash_validator E f j none t = .ok () u)
    (hp : get_beacon_proposer_index E t = .ok p) (hj : j ≠ i) (hpi : p ≠ i) :
    u.balances[i]? = t.balances[i]? := by
  obtain ⟨q, share, v, v₁, hq, -, h⟩ := slash_validator_effect h
  rw [hp] at hq; cases hq
  rw [h.balances, modify_other (by exact hpi), modify_other hpi, modify_other hj]

theorem attestation_balance (hE : SaneConfig E) {a : Attestation} (hs : t.slot < 2 ^ 63)
    (hpar : f ≠ .Phase0 → (flagsFor E t a.data).length = t.validators.length)
    (h : process_attestation E f a t = .ok () u)
    (hp : get_beacon_proposer_index E t = .ok p) (hpi : p ≠ i) :
    u.balances[i]? = t.balances[i]? := by
  by_cases h0 : f = .Phase0
  · subst h0
    exact same_balance phase0_attestation_mod (by decide) h
  by_cases h1 : f = .Electra
  · subst h1
    obtain ⟨-, idxs, l, fl, -, -, -, -, q, b, new, hq, -, -, rfl⟩ :=
      Props.C30_electra_process_attestation_effect E hE a t u hs (hpar h0) h
    rw [hp] at hq; cases hq
    exact List.getElem?_set_ne hpi
  · obtain ⟨-, l, fl, -, -, q, b, new, hq, -, -, rfl⟩ :=
      Props.C30_process_attestation_effect E hE f ⟨h0, h1⟩ a t u hs (hpar h0) h
    rw [hp] at hq; cases hq
    exact List.getElem?_set_ne hpi

theorem first_ne {key : PublicKey} {j : Nat} {v : Validator} (h : FirstWithKey t key j)
    (hv : t.validators[i]? = some v) (hk : key ≠ v.public_key) : j ≠ i := by
  rintro rfl
  obtain ⟨x, hx, hk'⟩ := h.1
  rw [hv] at hx; cases hx
  exact hk hk'.symm

theorem deposit_effect_balance {v : Validator} {x : Nat} {d : DepositData}
    (h : DepositEffect E f d t u) (hv : t.validators[i]? = some v) (hx : t.balances[i]? = some x)
    (hk : d.public_key ≠ v.public_key) : u.balances[i]? = some x := by
  cases h with
  | topUp j b known balance fits => exact (List.getElem?_set_ne (first_ne known hv hk)).trans hx
  | added new signed =>
    have := (List.getElem?_eq_some_iff.1 hx).1
    unfold withValidator
    split <;> exact (List.getElem?_append_left this).trans hx
  | ignored => exact hx

theorem electra_deposit_effect_balance {v : Validator} {x : Nat} {d : DepositData}
    (h : ElectraDepositEffect E d t u) (hv : t.validators[i]? = some v)
    (hx : t.balances[i]? = some x) (hk : d.public_key ≠ v.public_key) :
    u.balances[i]? = some x := by
  cases h with
  | topUp => exact hx
  | switch j b w known val signed switch balance =>
    have := first_ne known hv hk
    unfold compounding
    dsimp only
    split
    · exact (List.getElem?_set_ne this).trans hx
    · exact hx
  | added new signed =>
    have := (List.getElem?_eq_some_iff.1 hx).1
    exact (List.getElem?_append_left this).trans hx

theorem deposit_balance {v : Validator} {x : Nat} (hE : SaneConfig E) {d : Deposit}
    (h : process_deposit E f d t = .ok () u) (hv : t.validators[i]? = some v)
    (hx : t.balances[i]? = some x) (hk : d.data.public_key ≠ v.public_key) :
    u.balances[i]? = some x := by
  obtain ⟨-, -, h⟩ := process_deposit_ok_iff.1 h
  by_cases hf : f = .Electra
  · subst hf
    exact electra_deposit_effect_balance (electra_apply_deposit_eq_ok.1 h) hv hx hk
  · exact deposit_effect_balance
      ((apply_deposit_eq_ok hf (Nat.pos_iff_ne_zero.1 hE.effective_balance_increment)).1 h) hv hx hk

theorem decrease_other {j n : Nat} (h : decrease_balance j n t = .ok () u) (hj : j ≠ i) :
    u.balances[i]? = t.balances[i]? := by
  simp only [decrease_balance, run] at h
  obtain ⟨b, -, b', x, h1, rfl⟩ := h
  have : t = x := by rcases h1 with ⟨-, -, h⟩ | ⟨-, -, h⟩ <;> exact h
  subst this
  exact List.getElem?_set_ne hj

theorem withdrawals_balance {p : ExecutionPayload} (h : process_withdrawals E f p t = .ok () u)
    (hw : ∀ w ∈ p.withdrawals, w.validator_index ≠ i) : u.balances[i]? = t.balances[i]? := by
  simp only [process_withdrawals, run] at h
  obtain ⟨r, -, h1, t1, h2, h⟩ := h
  have h1 : p.withdrawals = r.1 := by simpa using h1
  have key : t1.balances[i]? = t.balances[i]? :=
    runs_inv (J := fun x => x.balances[i]? = t.balances[i]?)
      (map_all fun w hm x y hx hxy => (decrease_other hxy (hw w (h1 ▸ hm))).trans hx)
      (runs_map.2 h2) rfl
  obtain ⟨_, -, _, -, rfl⟩ := h
  exact key

theorem settle_other {r q p j : Nat} {l : List (Nat × Bool)} {b : Nat}
    (h : ∀ x ∈ l, x.1 ≠ j) (hp : p ≠ j ∨ ∀ x ∈ l, x.2 = false) : settle r q p j l b = b := by
  induction l generalizing b with
  | nil => rfl
  | cons x l ih =>
    obtain ⟨k, c⟩ := x
    have h1 : k ≠ j := h (k, c) (by simp)
    have ih := @ih
    cases c
    · simp only [settle, if_neg h1, Nat.sub_zero]
      exact ih (fun x hx => h x (by simp [hx])) (hp.imp_right fun hp x hx => hp x (by simp [hx]))
    · rcases hp with hp | hp
      · simp only [settle, if_neg h1, if_neg hp, Nat.add_zero]
        exact ih (fun x hx => h x (by simp [hx])) (.inl hp)
      · exact absurd (hp (k, true) (by simp)) Bool.noConfusion

theorem signers_nil {keys : List PublicKey} {bits : List Bool} {seats : List Nat}
    (hl : seats.length = keys.length) (h : signers keys bits = []) :
    ∀ x ∈ seats.zip bits, x.2 = false := by
  induction keys generalizing bits seats with
  | nil =>
    rw [List.length_nil, List.length_eq_zero_iff] at hl
    subst hl
    intro x hx; cases hx
  | cons k keys ih =>
    cases seats with
    | nil => cases hl
    | cons c seats =>
    cases bits with
    | nil => intro x hx; cases hx
    | cons b bits =>
      cases b
      · intro x hx
        rw [List.zip_cons_cons, List.mem_cons] at hx
        rcases hx with rfl | hx
        · rfl
        · exact ih (by simpa using hl) (by simpa [signers] using h) x hx
      · simp [signers] at h

theorem sync_balance {a : SyncAggregate} {v : Validator}
    (h : process_sync_aggregate E a t = .ok () u)
    (hp : get_beacon_proposer_index E t = .ok p) (hpi : p ≠ i)
    (hv : t.validators[i]? = some v)
    (hk : v.public_key ∉ t.current_sync_committee.public_keys) :
    u.balances[i]? = t.balances[i]? := by
  obtain ⟨-, seats, q, bs, hseats, hq, rfl, -, hb⟩ := sync_aggregate_ok h
  dsimp only
  rw [hb]
  have : ∀ x ∈ seats.zip a.sync_committee_bits, x.1 ≠ i := by
    rintro ⟨k, c⟩ hx rfl
    have h1 := (List.of_mem_zip hx).1
    obtain ⟨n, hn, hk'⟩ := List.getElem_of_mem h1
    have h2 : n < t.current_sync_committee.public_keys.length := hseats.1 ▸ hn
    obtain ⟨w, hw, hkey, -⟩ := hseats.2 n _ k (List.getElem?_eq_getElem h2)
      (by rw [List.getElem?_eq_getElem hn, hk'])
    dsimp only at hv
    rw [hv] at hw; cases hw
    exact hk (hkey ▸ List.getElem_mem h2)
  have key : ∀ b, settle (syncReward E t) (syncProposerReward E t) q i
      (seats.zip a.sync_committee_bits) b = b := by
    intro b
    refine settle_other this ?_
    by_cases hs : signers t.current_sync_committee.public_keys a.sync_committee_bits = []
    · right
      exact signers_nil hseats.1 hs
    · left
      have := hq hs
      rw [hp] at this; cases this
      exact hpi
  cases t.balances[i]? with
  | none => rfl
  | some b => rw [Option.map_some, key]

end Balances

/-- The validator of an entry keeps its key while a block is processed. -/
theorem Inside.key {E : Env} (hE : SaneConfig E) {f : Fork} {s t : State} (h : Inside E f s t)
    {i : Nat} {v : Validator} (hv : s.validators[i]? = some v) :
    ∃ w, t.validators[i]? = some w ∧ w.public_key = v.public_key :=
  let ⟨w, hw, hk, _⟩ := Props.C11_registry_moves_forward E hE f s t h.history i v hv
  ⟨w, hw, hk⟩

theorem Inside.flags {E : Env} {f : Fork} {s t : State} (h : Inside E f s t)
    (hpar : Parallel f s) (d : AttestationData) (hf : f ≠ .Phase0) :
    (flagsFor E t d).length = t.validators.length := by
  have := ((Props.C12_calls_keep_lengths E f s t h.history).2.1 hpar).2 hf
  unfold flagsFor
  split
  · exact this.2.1
  · exact this.1

/-- A balance that is not among those the block touches is as it was. -/
theorem balance_kept {E : Env} (hE : SaneConfig E) (hmax : 0 < E.max_deposits)
    (hV : E.min_seed_lookahead + 2 < E.epochs_per_historical_vector) {f : Fork}
    {b : BeaconBlock} {s s' : State} (hslot : s.slot < 2 ^ 63)
    (hreg : s.validators.length ≤ 2 ^ 40) (hpar : Parallel f s)
    (h : process_block E f b s = .ok () s') {i : Nat} {v : Validator}
    (hv : s.validators[i]? = some v) (hn : ¬ Paid f s b i v.public_key) :
    s'.balances[i]? = s.balances[i]? := by
  obtain ⟨a0, a1, a2, a3, a4, a5, a6, hp⟩ := phases hmax h
  have hprop := fun t => hp.proposer hE hreg hslot hV (t := t)
  simp only [Paid, not_or, not_exists, not_and] at hn
  obtain ⟨n0, n1, n2, n3, n4, n5, n6⟩ := hn
  obtain ⟨x, hx⟩ : ∃ x, s.balances[i]? = some x := by
    have h1 := (List.getElem?_eq_some_iff.1 hv).1
    exact ⟨_, List.getElem?_eq_getElem (hpar.1 ▸ h1)⟩
  rw [hx]
  let J : State → Prop := fun t => Inside E f s t ∧ t.balances[i]? = some x
  have j0 : J a0 := by
    refine ⟨hp.i0, runs_inv (J := fun t => t.balances[i]? = some x) ?_ hp.opening hx⟩
    exact opening_all
      (fun t u ht hm => (same_balance header_mod (by decide) hm).trans ht)
      (fun hf t u ht hm => (withdrawals_balance hm (n5 hf)).trans ht)
      (fun t u ht hm => (same_balance payload_mod (by decide) hm).trans ht)
      (fun t u ht hm => (same_balance randao_mod (by decide) hm).trans ht)
      (fun t u ht hm => (same_balance eth1_mod (by decide) hm).trans ht)
  have j1 : J a1 := runs_inv
    (map_all fun op ho t u ht hm => ⟨inside_proposer_slashing ht.1 hm,
      (slash_balance (process_proposer_slashing_eq_ok.1 hm).2.2 (hprop t ht.1) (n1 op ho)
        n0).trans ht.2⟩) hp.proposers j0
  have j2 : J a2 := runs_inv
    (map_all fun op ho t u ht hm => by
      refine ⟨inside_attester_slashing ht.1 hm, ?_⟩
      have h1 := (process_attester_slashing_eq_ok.1 hm).2.2.2.2.2
      have hc : i ∉ culprits E t op.attestation_1 op.attestation_2 := fun hc =>
        n2 op ho (mem_culprits.1 hc).1 (mem_culprits.1 hc).2.1
      have key := runs_inv (J := J) (map_all fun j hj t' u' ht' hm' => ?_) (runs_map.2 h1) ht
      · exact key.2
      · refine ⟨inside_part (.slash_validator _ _) slash_weights slash_mod (by decide) ht'.1 hm', ?_⟩
        exact (slash_balance (i := i) hm' (hprop t' ht'.1) (by rintro rfl; exact hc hj)
          n0).trans ht'.2)
    hp.attesters j1
  have j3 : J a3 := runs_inv
    (map_all fun a ha t u ht hm => ⟨inside_attestation ht.1 hm,
      (attestation_balance hE (by rw [ht.1.slot]; exact hslot) (ht.1.flags hpar a.data) hm
        (hprop t ht.1) n0).trans ht.2⟩) hp.votes j2
  have j4 : J a4 := runs_inv
    (map_all fun d hd t u ht hm => by
      obtain ⟨w, hw, hk⟩ := ht.1.key hE hv
      exact ⟨inside_deposit ht.1 hm, deposit_balance hE hm hw ht.2 (by rw [hk]; exact n3 d hd)⟩)
    hp.deposits j3
  have j5 : a5.balances[i]? = some x := runs_inv (J := fun t => t.balances[i]? = some x)
    (map_all fun op ho t u ht hm => (same_balance voluntary_exit_mod (by decide) hm).trans ht)
    hp.exits j4.2
  have j6 : J a6 := by
    refine runs_inv (later_all ?_ ?_ ?_ ?_) hp.later ⟨hp.i5, j5⟩
    · exact fun hf op ho t u ht hm =>
        ⟨inside_part (.process_bls_to_execution_change _) bls_change_weights bls_change_mod
          (by decide) ht.1 hm, (same_balance bls_change_mod (by decide) hm).trans ht.2⟩
    · exact fun hf r hr t u ht hm =>
        ⟨inside_part (.process_execution_layer_withdrawal_request _ hf) request_weights
          withdrawal_request_mod (by decide) ht.1 hm,
          (same_balance withdrawal_request_mod (by decide) hm).trans ht.2⟩
    · intro hf r hr t u ht hm
      obtain ⟨w, hw, hk⟩ := ht.1.key hE hv
      exact ⟨inside_part (.process_deposit_receipt _ hf) receipt_weights deposit_receipt_mod (by decide)
        ht.1 hm, electra_deposit_effect_balance ((Props.C69_receipt_iff E r t u).1 hm) hw ht.2
          (by rw [hk]; exact n6 hf r hr)⟩
    · exact fun hf op ho t u ht hm =>
        absurd hm (Props.C69_consolidation_fails E hE.withdrawability_delay.1 op t u)
  have j7 : J s' := by
    refine runs_inv (closing_all ?_) hp.closing j6
    intro hf t u ht hm
    obtain ⟨w, hw, hk⟩ := ht.1.key hE hv
    refine ⟨inside_part (.process_sync_aggregate _) (weights_mod sync_aggregate_mod (by decide))
      sync_aggregate_mod (by decide) ht.1 hm, (sync_balance hm (hprop t ht.1) n0 hw ?_).trans ht.2⟩
    rw [hk, show t.current_sync_committee = s.current_sync_committee from
      ht.1.still .current_sync_committee (by decide)]
    exact n4 hf
  exact j7.2

/-! ## Participation flags -/

/-- The participation lists are kept, but may become longer. -/
def Grows (s s' : State) : Prop :=
  s.current_epoch_participation <+: s'.current_epoch_participation ∧
  s.previous_epoch_participation <+: s'.previous_epoch_participation

theorem growsPre : Preorder' Grows :=
  ⟨fun _ => ⟨List.prefix_refl _, List.prefix_refl _⟩, fun h h' => ⟨h.1.trans h'.1, h.2.trans h'.2⟩⟩

theorem grows_same {s s' : State}
    (h1 : s'.current_epoch_participation = s.current_epoch_participation)
    (h2 : s'.previous_epoch_participation = s.previous_epoch_participation) : Grows s s' := by
  unfold Grows; rw [h1, h2]; exact growsPre.refl s

theorem grows_mod {α : Type} {W : List Field} {m : M α} (h : Modifies W m)
    (hW : ∀ x ∈ [Field.current_epoch_participation, .previous_epoch_participation], x ∉ W) :
    Pres Grows m :=
  Pres.mono h fun _ _ h => grows_same (h _ (hW .current_epoch_participation (by decide)))
    (h _ (hW .previous_epoch_participation (by decide)))

theorem grows_upd {g : State → State}
    (h1 : ∀ s, (g s).current_epoch_participation = s.current_epoch_participation)
    (h2 : ∀ s, (g s).previous_epoch_participation = s.previous_epoch_participation) :
    Pres Grows (upd g) := Pres.upd fun s => grows_same (h1 s) (h2 s)

theorem add_validator_grows {E : Env} {f : Fork} {k : PublicKey} {w : Bytes32} {n : Nat} :
    Pres Grows (add_validator_to_registry E f k w n) := by
  intro s
  unfold add_validator_to_registry
  rw [wp_bind, wp_liftM]
  refine ⟨fun v hv => ?_, fun _ _ => growsPre.refl s⟩
  cases f
  case Phase0 => exact growsPre.refl s
  all_goals exact ⟨List.prefix_append _ _, List.prefix_append _ _⟩

theorem electra_apply_deposit_grows {E : Env} {k : PublicKey} {w : Bytes32} {n : Nat}
    {sig : Signature} : Pres Grows (Electra.apply_deposit E k w n sig) := by
  unfold Electra.apply_deposit
  walk growsPre [grows_mod switch_mod (by decide), add_validator_grows, grows_upd]

theorem deposit_grows {E : Env} {f : Fork} {d : Deposit} : Pres Grows (process_deposit E f d) := by
  unfold process_deposit apply_deposit Phase0.apply_deposit
  walk growsPre [electra_apply_deposit_grows, grows_mod increase_mod (by decide),
    add_validator_grows, grows_upd]

theorem receipt_grows {E : Env} {r : DepositReceipt} :
    Pres Grows (Electra.process_deposit_receipt E r) := by
  unfold Electra.process_deposit_receipt
  walk growsPre [electra_apply_deposit_grows, grows_upd]

/-- What comes after the attestations keeps the flags. -/
theorem Phases.grows {E : Env} {f : Fork} {b : BeaconBlock} {s a0 a1 a2 a3 a4 a5 a6 s' : State}
    (hp : Phases E f b s a0 a1 a2 a3 a4 a5 a6 s') : Grows a3 s' := by
  refine growsPre.trans (runs_pres growsPre (map_all fun _ _ => deposit_grows.toOk) hp.deposits)
    (growsPre.trans (runs_pres growsPre
      (map_all fun _ _ => (grows_mod voluntary_exit_mod (by decide)).toOk) hp.exits)
    (growsPre.trans (runs_pres growsPre (later_all ?_ ?_ ?_ ?_) hp.later)
      (runs_pres growsPre (closing_all ?_) hp.closing)))
  · exact fun _ _ _ => (grows_mod bls_change_mod (by decide)).toOk
  · exact fun _ _ _ => (grows_mod withdrawal_request_mod (by decide)).toOk
  · exact fun _ _ _ => receipt_grows.toOk
  · exact fun _ _ _ => (grows_mod consolidation_mod (by decide)).toOk
  · exact fun _ => (grows_mod sync_aggregate_mod (by decide)).toOk

/-! ## Votes mean the same in the midst of a block as before it -/

section Votes
variable {E : Env} {f : Fork} {s t : State}

theorem Inside.committee (hslot : s.slot < 2 ^ 63)
    (hV : E.min_seed_lookahead + 3 < E.epochs_per_historical_vector) (h : Inside E f s t)
    {slot : Nat} (hl : epochOf E slot ≤ epochOf E s.slot)
    (hr : epochOf E s.slot ≤ epochOf E slot + 1) (index : Nat) :
    get_beacon_committee E t slot index = get_beacon_committee E s slot index := by
  have h0 : epochOf E s.slot ≤ s.slot := Nat.div_le_self _ _
  refine committee_decided (history_pres (dutyPre E) (fun _ => entry_duty) h.history)
    (history_pres (mixPre E) (fun _ => entry_mix) h.history) ?_ ?_ ?_ ?_
  · unfold decided; omega
  · unfold FAR_FUTURE_EPOCH; omega
  · omega
  · rw [h.slot]; omega

theorem Inside.count (hslot : s.slot < 2 ^ 63) (h : Inside E f s t)
    {epoch : Nat} (hl : epoch ≤ epochOf E s.slot) :
    get_committee_count_per_slot E t epoch = get_committee_count_per_slot E s epoch := by
  have h0 : epochOf E s.slot ≤ s.slot := Nat.div_le_self _ _
  unfold get_committee_count_per_slot
  rw [activeIndices_eq, activeIndices_eq,
    active_decided (history_pres (dutyPre E) (fun _ => entry_duty) h.history)
      (by unfold decided; omega) (by unfold FAR_FUTURE_EPOCH; omega)]

theorem Inside.domain (h : Inside E f s t) (ty : DomainType) (epoch : Nat) :
    domainAt E t ty epoch = domainAt E s ty epoch := by
  unfold domainAt versionAt
  rw [show t.fork = s.fork from h.still .fork (by decide),
    show t.genesis_validators_root = s.genesis_validators_root from
      h.still .genesis_validators_root (by decide)]

theorem Inside.keys (hE : SaneConfig E) (h : Inside E f s t) {l : List Nat}
    (hl : ∀ i ∈ l, i < s.validators.length) :
    l.map (fun i => (t.validators[i]?).map Validator.public_key) =
      l.map (fun i => (s.validators[i]?).map Validator.public_key) := by
  refine List.map_congr_left fun i hi => ?_
  obtain ⟨w, hw, hk⟩ := h.key hE (List.getElem?_eq_getElem (hl i hi))
  rw [hw, List.getElem?_eq_getElem (hl i hi), Option.map_some, Option.map_some, hk]

theorem Inside.indexed (hE : SaneConfig E) (h : Inside E f s t) {a : IndexedAttestation}
    (hl : ∀ i ∈ a.attesting_indices, i < s.validators.length) (hv : ValidIndexed E t a) :
    ValidIndexed E s a :=
  ⟨hv.nonempty, hv.increasing, hl, fun keys hk => by
    rw [← h.domain]
    exact hv.signed keys (by rw [h.keys hE hl]; exact hk)⟩

theorem Inside.root (h : Inside E f s t) (slot : Nat) :
    get_block_root_at_slot E t slot = get_block_root_at_slot E s slot := by
  unfold get_block_root_at_slot
  rw [h.slot, show t.block_roots = s.block_roots from h.still .block_roots (by decide)]

theorem Inside.timely (h : Inside E f s t) {d : AttestationData} :
    TimelyVote E f t d ↔ TimelyVote E f s d := by
  have h1 : t.current_justified_checkpoint = s.current_justified_checkpoint :=
    h.still .current_justified_checkpoint (by decide)
  have h2 : t.previous_justified_checkpoint = s.previous_justified_checkpoint :=
    h.still .previous_justified_checkpoint (by decide)
  have h3 := h.slot
  constructor
  · rintro ⟨a, b, c, d, e⟩
    rw [h3] at a c d; rw [h1, h2, h3] at e
    exact ⟨a, b, c, d, e⟩
  · rintro ⟨a, b, c, d, e⟩
    rw [← h3] at a c d; rw [← h1, ← h2, ← h3] at e
    exact ⟨a, b, c, d, e⟩

theorem Inside.earned (h : Inside E f s t) {d : AttestationData} {fl : List Nat} :
    EarnedFlags E f t d fl ↔ EarnedFlags E f s d fl := by
  have h1 := h.root
  have h2 : ∀ e, get_block_root E t e = get_block_root E s e := by
    intro e; unfold get_block_root; simp only [h1]
  unfold EarnedFlags
  rw [h.slot]
  constructor
  · rintro ⟨a, b, c, d⟩
    rw [h2] at b c; rw [h1] at c
    exact ⟨a, b, c, d⟩
  · rintro ⟨a, b, c, d⟩
    rw [← h2] at b c; rw [← h1] at c
    exact ⟨a, b, c, d⟩

theorem vote_near {E : Env} {f : Fork} {s : State} {d : AttestationData}
    (h : TimelyVote E f s d) :
    epochOf E d.slot ≤ epochOf E s.slot ∧ epochOf E s.slot ≤ epochOf E d.slot + 1 := by
  have h1 := h.slot
  rcases h.target with h2 | h2 <;> omega

theorem Inside.vote (hE : SaneConfig E) (hreg : s.validators.length ≤ 2 ^ 40)
    (hslot : s.slot < 2 ^ 63) (hV : E.min_seed_lookahead + 3 < E.epochs_per_historical_vector)
    (h : Inside E f s t) {a : Attestation} {l : List Nat} (ht : TimelyVote E f s a.data)
    (hv : CommitteeVote E t a l) : CommitteeVote E s a l := by
  obtain ⟨n1, n2⟩ := vote_near ht
  obtain ⟨c, hc, hlen, hvot⟩ := hv.members
  rw [h.committee hslot hV n1 n2] at hc
  refine ⟨?_, ⟨c, hc, hlen, hvot⟩, h.indexed hE (fun i hi => ?_) hv.signed⟩
  · obtain ⟨n, hn, hi⟩ := hv.index
    rw [h.count hslot (by rw [← ht.slot]; exact n1)] at hn
    exact ⟨n, hn, hi⟩
  · obtain ⟨k, hk, -⟩ := (hvot.2 i).1 hi
    obtain ⟨v, hv, -⟩ := committee_active hE.shuffle_round_count hreg hc (List.mem_of_getElem? hk)
    exact (List.getElem?_eq_some_iff.1 hv).1

theorem Inside.electra_attesters (hslot : s.slot < 2 ^ 63) (hV : E.min_seed_lookahead + 3 < E.epochs_per_historical_vector)
    (h : Inside E f s t) {a : Attestation} (ht : TimelyVote E f s a.data) {is : List Nat}
    (hi : Electra.get_attesting_indices E t a = .ok is) :
    ∃ is', Electra.get_attesting_indices E s a = .ok is' ∧ is.Perm is' := by
  obtain ⟨n1, n2⟩ := vote_near ht
  have : ∀ k l, Electra.attesters_from E t a k l = Electra.attesters_from E s a k l := by
    intro k l
    induction l generalizing k with
    | nil => rfl
    | cons i l ih => simp only [Electra.attesters_from, h.committee hslot hV n1 n2, ih]
  simp only [Electra.get_attesting_indices, run] at hi ⊢
  obtain ⟨l, hl, rfl⟩ := hi
  rw [this] at hl
  exact ⟨_, ⟨l, hl, rfl⟩, (iterate_perm E t _).trans (iterate_perm E s _).symm⟩

end Votes

/-- Before the deposits the registry has its old length. -/
theorem Phases.length {E : Env} {f : Fork} {b : BeaconBlock} {s a0 a1 a2 a3 a4 a5 a6 s' : State}
    (hp : Phases E f b s a0 a1 a2 a3 a4 a5 a6 s') : a2.validators.length = s.validators.length := by
  let r : State → State → Prop := fun s t => t.validators.length = s.validators.length
  have hr : Preorder' r := ⟨fun _ => rfl, fun h h' => h'.trans h⟩
  have hm : ∀ {W : List Field} {m : M Unit}, Modifies W m → Field.validators ∉ W → PresOk r m := by
    intro W m h hW
    refine PresOk.of fun x a y hxy => ?_
    have g : ChangesOnly W x y := h.toOk.ok hxy
    show y.validators.length = _
    rw [show y.validators = x.validators from g .validators hW]
  refine hr.trans (runs_pres hr (opening_all ?_ ?_ ?_ ?_ ?_) hp.opening)
    (hr.trans (runs_pres hr (map_all fun op _ => PresOk.of fun x a y hxy => ?_) hp.proposers)
      (runs_pres hr (map_all fun op _ => PresOk.of fun x a y hxy => ?_) hp.attesters))
  · exact hm header_mod (by decide)
  · exact fun _ => hm withdrawals_mod (by decide)
  · exact hm payload_mod (by decide)
  · exact hm randao_mod (by decide)
  · exact hm eth1_mod (by decide)
  · obtain ⟨p, share, v, v₁, -, -, h⟩ :=
      slash_validator_effect (process_proposer_slashing_eq_ok.1 hxy).2.2
    show y.validators.length = _
    rw [h.validators, List.length_set]
  · exact (slash_run (process_attester_slashing_eq_ok.1 hxy).2.2.2.2.2).1

end Verif
