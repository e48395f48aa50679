import Verif.Spec.Turn
import Verif.Proofs.Ends
import Verif.Props.Ends

/-! # Waiting for activation -/

namespace Verif

open Spec Props

/-! ## Blocks leave the queue alone -/

/-- The entry keeps its place on the queue. -/
def SameTurn (v w : Validator) : Prop :=
  w.activation_eligibility_epoch = v.activation_eligibility_epoch ∧
    w.activation_epoch = v.activation_epoch

/-- All entries do, and new ones are not on it. -/
def Still (s s' : State) : Prop :=
  (∀ (i : Nat) v, s.validators[i]? = some v → ∃ w, s'.validators[i]? = some w ∧ SameTurn v w) ∧
  ∀ (i : Nat) w, s'.validators[i]? = some w → s.validators[i]? = none →
    w.activation_eligibility_epoch = FAR_FUTURE_EPOCH ∧ w.activation_epoch = FAR_FUTURE_EPOCH

theorem stillPre : Preorder' Still := by
  refine ⟨fun s => ⟨fun i v h => ⟨v, h, rfl, rfl⟩, fun i w h h' => by rw [h] at h'; cases h'⟩,
    fun {a b c} h h' => ⟨fun i v hv => ?_, fun i w hw hn => ?_⟩⟩
  · obtain ⟨w, hw, h1⟩ := h.1 i v hv
    obtain ⟨x, hx, h2⟩ := h'.1 i w hw
    exact ⟨x, hx, h2.1.trans h1.1, h2.2.trans h1.2⟩
  · cases hb : b.validators[i]? with
    | none => exact h'.2 i w hw hb
    | some v =>
      obtain ⟨x, hx, h2⟩ := h'.1 i v hb
      rw [hw] at hx; cases hx
      have h3 := h.2 i v hb hn
      exact ⟨h2.1.trans h3.1, h2.2.trans h3.2⟩

theorem still_of_same {s s' : State} (h : s'.validators = s.validators) : Still s s' := by
  unfold Still; rw [h]; exact stillPre.refl s

theorem still_mod {α : Type} {W : List Field} {m : M α} (h : Modifies W m)
    (hW : Field.validators ∉ W) : Pres Still m :=
  Pres.mono h fun _ _ h => still_of_same (h _ hW)

theorem still_set {s : State} {i : Nat} {v w : Validator}
    (hv : s.validators[i]? = some v) (h : SameTurn v w) :
    Still s { s with validators := s.validators.set i w } := by
  have hi := (List.getElem?_eq_some_iff.1 hv).1
  refine ⟨fun j u hu => ?_, fun j u hu hn => ?_⟩
  · by_cases hj : i = j
    · subst hj
      rw [hv] at hu; cases hu
      exact ⟨w, by simp [hi], h⟩
    · exact ⟨u, by simpa [List.getElem?_set_ne hj] using hu, rfl, rfl⟩
  · have h1 := (List.getElem?_eq_some_iff.1 hu).1
    simp only [List.length_set] at h1
    rw [List.getElem?_eq_getElem h1] at hn
    cases hn

theorem upd_still {g : State → State} (h : ∀ s, (g s).validators = s.validators) :
    Pres Still (upd g) := Pres.upd fun s => still_of_same (h s)

theorem updv_still {i : Nat} {g : Validator → Validator} (h : ∀ v, SameTurn v (g v)) :
    Pres Still (updValidator i g) :=
  Pres.updValidator stillPre fun _ v hv => still_set hv (h v)

theorem turn_exit {v : Validator} {e : Nat} : SameTurn v { v with exit_epoch := e } := ⟨rfl, rfl⟩
theorem turn_withdrawable {v : Validator} {e : Nat} :
    SameTurn v { v with withdrawable_epoch := e } := ⟨rfl, rfl⟩
theorem turn_slashed {v : Validator} {b : Bool} : SameTurn v { v with slashed := b } := ⟨rfl, rfl⟩
theorem turn_credentials {v : Validator} {c : Bytes32} :
    SameTurn v { v with withdrawal_credentials := c } := ⟨rfl, rfl⟩

macro "turns" : tactic => `(tactic| first
  | with_reducible exact turn_exit | with_reducible exact turn_withdrawable
  | with_reducible exact turn_slashed | with_reducible exact turn_credentials
  | exact ⟨rfl, rfl⟩)

section Blocks

variable {E : Env} {f : Fork}

theorem exit_still {i : Nat} : Pres Still (f.initiate_validator_exit E i) := by
  have p := stillPre
  unfold Fork.initiate_validator_exit initiate_validator_exit Electra.initiate_validator_exit
  walk p [still_mod exit_churn_mod (by decide), updv_still]
  all_goals turns

theorem electra_exit_still {i : Nat} : Pres Still (Electra.initiate_validator_exit E i) := by
  have p := stillPre
  unfold Electra.initiate_validator_exit
  walk p [still_mod exit_churn_mod (by decide), updv_still]
  all_goals turns

theorem slash_still {i : Nat} {w : Option Nat} : Pres Still (slash_validator E f i w) := by
  have p := stillPre
  unfold slash_validator
  walk p [exit_still, updv_still, still_mod increase_mod (by decide),
    still_mod decrease_mod (by decide), upd_still]
  all_goals turns

theorem slash_all_still {e : Nat} {l : List Nat} {b : Bool} :
    Pres Still (slash_all E f e l b) := by
  have p := stillPre
  induction l generalizing b with
  | nil => unfold slash_all; walk p
  | cons x l ih => unfold slash_all; walk p [slash_still, ih]

theorem proposer_slashing_still {op : ProposerSlashing} :
    Pres Still (process_proposer_slashing E f op) := by
  have p := stillPre
  unfold process_proposer_slashing; walk p [slash_still]

theorem attester_slashing_still {op : AttesterSlashing} :
    Pres Still (process_attester_slashing E f op) := by
  have p := stillPre
  unfold process_attester_slashing; walk p [slash_all_still]

theorem add_validator_still {k : PublicKey} {w : Bytes32} {n : Nat} :
    Pres Still (add_validator_to_registry E f k w n) := by
  intro s
  unfold add_validator_to_registry
  rw [wp_bind, wp_liftM]
  refine ⟨fun v hv => ?_, fun _ _ => stillPre.refl s⟩
  have hv : v.activation_eligibility_epoch = FAR_FUTURE_EPOCH ∧
      v.activation_epoch = FAR_FUTURE_EPOCH := by
    unfold get_validator_from_deposit at hv
    simp only [run] at hv
    obtain ⟨_, _, rfl⟩ := hv
    exact ⟨rfl, rfl⟩
  have key : ∀ s' : State, s'.validators = s.validators ++ [v] → Still s s' := by
    intro s' h
    refine ⟨fun i u hu => ⟨u, ?_, rfl, rfl⟩, fun i u hu hn => ?_⟩
    · rw [h, List.getElem?_append_left (List.getElem?_eq_some_iff.1 hu).1]; exact hu
    · rw [h, List.getElem?_append_right (List.getElem?_eq_none_iff.1 hn)] at hu
      have := List.mem_of_getElem? hu
      rw [List.mem_singleton] at this
      subst this; exact hv
  cases f <;> exact key _ rfl

theorem switch_still {i : Nat} : Pres Still (Electra.switch_to_compounding_validator E i) := by
  have p := stillPre
  unfold Electra.switch_to_compounding_validator
  walk p [still_mod queue_excess_mod (by decide), updv_still]
  all_goals turns

theorem phase0_apply_deposit_still {k : PublicKey} {w : Bytes32} {n : Nat} {sig : Signature} :
    Pres Still (Phase0.apply_deposit E f k w n sig) := by
  have p := stillPre
  unfold Phase0.apply_deposit
  walk p [still_mod increase_mod (by decide), add_validator_still]

theorem electra_apply_deposit_still {k : PublicKey} {w : Bytes32} {n : Nat} {sig : Signature} :
    Pres Still (Electra.apply_deposit E k w n sig) := by
  have p := stillPre
  unfold Electra.apply_deposit
  walk p [switch_still, add_validator_still, upd_still]

theorem apply_deposit_still {k : PublicKey} {w : Bytes32} {n : Nat} {sig : Signature} :
    Pres Still (apply_deposit E f k w n sig) := by
  unfold apply_deposit
  cases f
  case Electra => exact electra_apply_deposit_still
  all_goals exact phase0_apply_deposit_still

theorem deposit_still {d : Deposit} : Pres Still (process_deposit E f d) := by
  have p := stillPre
  unfold process_deposit; walk p [apply_deposit_still, upd_still]

theorem voluntary_exit_still {op : SignedVoluntaryExit} :
    Pres Still (process_voluntary_exit E f op) := by
  have p := stillPre
  unfold process_voluntary_exit; walk p [exit_still]

theorem bls_change_still {op : SignedBlsToExecutionChange} :
    Pres Still (process_bls_to_execution_change E op) := by
  intro s
  have p := stillPre
  unfold process_bls_to_execution_change
  rw [wp_bind, wp_get, wp_bind, wp_liftM]
  refine ⟨fun v hv => ?_, fun _ _ => p.refl s⟩
  rw [wp_bind, wp_liftM]
  refine ⟨fun _ _ => ?_, fun _ _ => p.refl s⟩
  rw [wp_bind, wp_liftM]
  refine ⟨fun _ _ => ?_, fun _ _ => p.refl s⟩
  rw [wp_bind, wp_liftM]
  refine ⟨fun _ _ => ?_, fun _ _ => p.refl s⟩
  rw [wp_updValidator]
  exact ⟨fun v' hv' => still_set hv' ⟨rfl, rfl⟩, fun _ => p.refl s⟩

theorem withdrawal_request_still {r : ExecutionLayerWithdrawalRequest} :
    Pres Still (Electra.process_execution_layer_withdrawal_request E r) := by
  have p := stillPre
  unfold Electra.process_execution_layer_withdrawal_request
  walk p [electra_exit_still, still_mod exit_churn_mod (by decide), upd_still]

theorem deposit_receipt_still {r : DepositReceipt} :
    Pres Still (Electra.process_deposit_receipt E r) := by
  have p := stillPre
  unfold Electra.process_deposit_receipt
  walk p [electra_apply_deposit_still, upd_still]

theorem consolidation_still {op : SignedConsolidation} :
    Pres Still (Electra.process_consolidation E op) := by
  have p := stillPre
  unfold Electra.process_consolidation
  walk p [still_mod consolidation_churn_mod (by decide), updv_still, upd_still]
  all_goals turns

theorem operations_still {b : BeaconBlockBody} : Pres Still (process_operations E f b) := by
  have p := stillPre
  unfold process_operations
  cases f <;>
  walk p [proposer_slashing_still, attester_slashing_still, still_mod attestation_mod (by decide),
    deposit_still, voluntary_exit_still, bls_change_still, withdrawal_request_still,
    deposit_receipt_still, consolidation_still]

theorem block_still {b : BeaconBlock} : Pres Still (process_block E f b) := by
  have p := stillPre
  unfold process_block
  walk p [still_mod header_mod (by decide), still_mod block_payload_mod (by decide),
    still_mod randao_mod (by decide), still_mod eth1_mod (by decide), operations_still,
    still_mod sync_aggregate_mod (by decide)]

end Blocks

/-! ## Slots -/

section Slots

variable {E : Env} {f : Fork} {s t u : State}

theorem orderly_proper (h : Orderly E f s) : Proper E s := by
  have h1 := h.ordered.finalized_le
  have h2 := h.ordered.previous_le
  have h3 := h.ordered.current_lt
  exact ⟨h.config, h.balances, h.increment, h.ordered.bits_length, by omega, by omega, by omega,
    h.parallel.1⟩

/-- What the end of an epoch does to the queue. -/
structure Served (E : Env) (f : Fork) (t u j : State) (A : List Nat) : Prop where
  activated : Activated E f j A
  same : j.validators = t.validators
  now : j.slot = t.slot
  final : j.finalized_checkpoint = u.finalized_checkpoint
  epoch : epochOf E u.slot = epochOf E t.slot + 1
  length : u.validators.length = t.validators.length
  entries : ∀ (i : Nat) v, t.validators[i]? = some v → ∃ w, u.validators[i]? = some w ∧
    w.activation_eligibility_epoch =
      (if JoinsQueue E f v then epochOf E t.slot + 1 else v.activation_eligibility_epoch) ∧
    w.activation_epoch = if i ∈ A then nextFreeEpoch E t else v.activation_epoch

theorem slot_turn (ho : Orderly E f t) (h : process_slots E f (t.slot + 1) t = .ok () u) :
    Orderly E f u ∧ t.finalized_checkpoint.epoch ≤ u.finalized_checkpoint.epoch ∧
    (epochOf E u.slot = epochOf E t.slot ∧ u.validators = t.validators ∨
      ∃ j A, Served E f t u j A) := by
  have hs := process_slots_one h
  obtain ⟨k1, k2, -⟩ := slot_step_casper ho.ordered hs
  refine ⟨⟨ho.config, ho.balances, ho.increment, (slots_len.ok h).parallel ho.parallel,
    ordered_congr ⟨rfl, rfl, rfl, rfl⟩ rfl (fun _ _ => trivial) k1⟩, k2.finalized, ?_⟩
  obtain ⟨t₁, t₂, h1, -, h0, h2, rfl⟩ := slot_step_eq_ok.1 hs
  have c1 := slot_mod.ok h1
  have hv : t₁.validators = t.validators := c1 .validators (by decide)
  have hsl : t₁.slot = t.slot := c1 .slot (by decide)
  have hpos := ho.config.slots_per_epoch.1
  rcases h2 with ⟨h2, h3⟩ | ⟨h2, rfl⟩
  · right
    have hp := orderly_proper ho
    have hp1 : Proper E t₁ := ⟨hp.config, hp.balances, hp.increment,
      by rw [show t₁.justification_bits = t.justification_bits from
        c1 .justification_bits (by decide)]; exact hp.bits,
      by rw [show t₁.previous_justified_checkpoint = t.previous_justified_checkpoint from
        c1 .previous_justified_checkpoint (by decide), hsl]; exact hp.previous,
      by rw [show t₁.current_justified_checkpoint = t.current_justified_checkpoint from
        c1 .current_justified_checkpoint (by decide), hsl]; exact hp.current,
      by rw [show t₁.finalized_checkpoint = t.finalized_checkpoint from
        c1 .finalized_checkpoint (by decide), hsl]; exact hp.finalized,
      by rw [show t₁.balances = t.balances from c1 .balances (by decide), hv]; exact hp.accounts⟩
    obtain ⟨q1, A, q2, q3⟩ := C87_registry hp1 h3
    refine ⟨judged t₁ t₂, A, q2, hv, hsl, rfl, ?_, by rw [← hv]; exact q1, fun i v h => ?_⟩
    · unfold epochOf
      show (t.slot + 1) / _ = _
      rw [Nat.succ_div, if_pos (Nat.dvd_of_mod_eq_zero h2)]
    · obtain ⟨w, x, hx, hq, he, -⟩ := q3 i v (by rw [hv]; exact h)
      refine ⟨x, hx, ?_, ?_⟩
      · rw [he]; show w.activation_eligibility_epoch = _
        rw [hq.eligibility]; show (if _ then epochOf E t₁.slot + 1 else _) = _; rw [hsl]
      · rw [he]; show w.activation_epoch = _
        rw [hq.activation]; unfold nextFreeEpoch
        show (if _ then epochOf E t₁.slot + 1 + _ else _) = _; rw [hsl]
  · left
    refine ⟨?_, hv⟩
    unfold epochOf
    show (t.slot + 1) / _ = _
    rw [Nat.succ_div, if_neg fun h => h2 (Nat.mod_eq_zero_of_dvd h), Nat.add_zero]

theorem block_turn {b : BeaconBlock} (ho : Orderly E f t) (h : process_block E f b t = .ok () u) :
    Orderly E f u ∧ u.finalized_checkpoint = t.finalized_checkpoint ∧ u.slot = t.slot ∧
      Still t u := by
  have h1 := block_mod.ok h
  have h2 : SameCheckpoints t u := same_mod h1 (by decide)
  have h3 : u.slot = t.slot := h1 .slot (by decide)
  exact ⟨⟨ho.config, ho.balances, ho.increment, (block_len.ok h).parallel ho.parallel,
    ordered_congr h2 (by rw [h3]) (fun _ h => h) ho.ordered⟩, h2.2.2.2, h3, block_still.ok h⟩

theorem followed_orderly (hE : SaneConfig E) (hB : SaneBalances E)
    (hI : E.effective_balance_increment < 2 ^ 64) (h : Followed E f s) :
    Orderly E f s ∧ Inv E f s := by
  induction h with
  | genesis h =>
    have := genesis_inv h
    exact ⟨⟨hE, hB, hI, this.parallel, ordered_congr ⟨rfl, rfl, rfl, rfl⟩ rfl (fun _ _ => trivial)
      (genesis_ordered h)⟩, this⟩
  | slot _ h ih =>
    have hl := slots_len.ok h
    exact ⟨(slot_turn ih.1 h).1, hl.parallel ih.2.parallel, sized_of_same hl.sizes ih.2.sized,
      ((slots_reg hE).ok h).2 ih.2.exits⟩
  | block _ h ih =>
    have hl := block_len.ok h
    exact ⟨(block_turn ih.1 h).1, hl.parallel ih.2.parallel, sized_of_same hl.sizes ih.2.sized,
      ((block_reg hE).ok h).2 ih.2.exits⟩
  | upgrade _ hg h ih =>
    have := upgrade_inv ih.2 hg h
    obtain ⟨h1, -, -, h2, h3, h4, h5⟩ := upgrade_common h
    exact ⟨⟨hE, hB, hI, this.parallel,
      ordered_congr ⟨h2, h3, h4, h5⟩ (by rw [h1]) (fun _ h => h) ih.1.ordered⟩, this⟩

end Slots

/-! ## The turn of one validator -/

section Turns

variable {E : Env} {f : Fork} {s t u : State} {i j : Nat}

theorem mem_ahead {j : Nat} : j ∈ ahead s i ↔ WaitsInQueue s j ∧ Before s j i := by
  unfold ahead
  simp only [List.mem_filter, List.mem_range, decide_eq_true_eq]
  exact ⟨fun h => h.2, fun h => ⟨by
    obtain ⟨v, hv, -⟩ := h.1
    exact (List.getElem?_eq_some_iff.1 hv).1, h⟩⟩

theorem ahead_nodup : (ahead s i).Nodup := List.Nodup.filter _ List.nodup_range

/-- The elements of two disjoint lists without repetition that are all in a third. -/
theorem both_within {a b c : List Nat} (ha : a.Nodup) (hb : b.Nodup) (hd : ∀ x ∈ a, x ∉ b)
    (h1 : ∀ x ∈ a, x ∈ c) (h2 : ∀ x ∈ b, x ∈ c) : a.length + b.length ≤ c.length := by
  rw [← List.length_append]
  refine List.Subperm.length_le (List.Nodup.subperm ?_ ?_)
  · rw [List.nodup_append]
    exact ⟨ha, hb, fun x hx y hy h => hd x hx (h ▸ hy)⟩
  · intro x hx
    rcases List.mem_append.1 hx with h | h
    exacts [h1 x h, h2 x h]

theorem slowest_le (s : State) : slowest E f ≤ activationLimit E f s := by
  unfold slowest activationLimit churnLimit
  split <;> omega

/-- Validator `i` has had its turn by the epoch `e`, or waits on, with fewer and fewer before it. -/
def OnTime (E : Env) (f : Fork) (s : State) (i : Nat) (t : State) : Prop :=
  (∃ v, t.validators[i]? = some v ∧
    v.activation_epoch ≤ epochOf E s.slot + turn E f s i + 1 + E.max_seed_lookahead) ∨
  WaitsInQueue t i ∧ epochOf E t.slot ≤ epochOf E s.slot + turn E f s i ∧
    (f ≠ .Electra → (ahead t i).length + slowest E f * (epochOf E t.slot - epochOf E s.slot) ≤
      (ahead s i).length)

theorem within {a k e : Nat} (hk : 0 < k) (h : k * e ≤ a) : e ≤ a / k :=
  (Nat.le_div_iff_mul_le hk).2 (by rwa [Nat.mul_comm])

theorem onTime_slot (ho : Orderly E f t) (hk : f ≠ .Electra → 0 < slowest E f)
    (hb : epochOf E s.slot + turn E f s i + 1 + E.max_seed_lookahead < FAR_FUTURE_EPOCH)
    (he : epochOf E s.slot ≤ epochOf E t.slot) (hT : OnTime E f s i t)
    (h : process_slots E f (t.slot + 1) t = .ok () u) :
    OnTime E f s i u := by
  obtain ⟨ho', hfin, hst⟩ := slot_turn ho h
  rcases hst with ⟨h1, h2⟩ | ⟨j, A, hS⟩
  · -- no epoch ends
    rcases hT with ⟨v, hv, hle⟩ | ⟨⟨v, hv, hw⟩, hle, hlen⟩
    · exact Or.inl ⟨v, by rw [h2]; exact hv, hle⟩
    · refine Or.inr ⟨⟨v, by rw [h2]; exact hv, by omega, hw.2⟩, by rw [h1]; exact hle, fun hf => ?_⟩
      rw [h1]
      refine Nat.le_trans (Nat.add_le_add_right ?_ _) (hlen hf)
      refine List.Subperm.length_le (List.Nodup.subperm ahead_nodup fun x hx => ?_)
      rw [mem_ahead] at hx ⊢
      obtain ⟨⟨y, hy, -, hy2⟩, ⟨a, b, ha, hb, hab⟩⟩ := hx
      rw [h2] at hy ha hb
      rw [hy] at ha; cases ha
      rw [hv] at hb; cases hb
      exact ⟨⟨y, hy, by omega, hy2⟩, ⟨y, v, hy, hv, hab⟩⟩
  · rcases hT with ⟨v, hv, hle⟩ | ⟨⟨v, hv, hw1, hw2⟩, hle, hlen⟩
    · -- it has had its turn
      obtain ⟨w, hw, -, h3⟩ := hS.entries i v hv
      refine Or.inl ⟨w, hw, ?_⟩
      rw [h3, if_neg fun hA => ?_]
      · exact hle
      · obtain ⟨x, hx, -, h4⟩ := hS.activated.waiting i hA
        rw [hS.same, hv] at hx; cases hx
        omega
    · obtain ⟨w, hw, h3, h4⟩ := hS.entries i v hv
      have hbound := (orderly_proper ho).finalized
      have hj : WaitsInQueue j i := ⟨v, by rw [hS.same]; exact hv, by rw [hS.final]; omega, hw2⟩
      by_cases hA : i ∈ A
      · refine Or.inl ⟨w, hw, ?_⟩
        rw [h4, if_pos hA]
        unfold nextFreeEpoch
        omega
      · right
        obtain ⟨hf, hAl, hB⟩ := hS.activated.order i hj hA
        rw [if_neg hA] at h4
        rw [if_neg fun h => by have := h.1; omega] at h3
        have hlim := slowest_le (E := E) (f := f) j
        -- those activated were ahead
        have hin : ∀ a ∈ A, a ∈ ahead t i := by
          intro a ha
          obtain ⟨x, y, hx, hy, hxy⟩ := hB a ha
          rw [hS.same] at hx hy
          rw [hv] at hy; cases hy
          obtain ⟨z, hz, -, hz2⟩ := hS.activated.waiting a ha
          rw [hS.same, hx] at hz; cases hz
          exact mem_ahead.2 ⟨⟨x, hx, by omega, hz2⟩, ⟨x, v, hx, hv, hxy⟩⟩
        have hsub : ∀ x ∈ ahead u i, x ∈ ahead t i ∧ x ∉ A := by
          intro x hx
          obtain ⟨⟨y, hy, -, hy2⟩, ⟨a, b, ha, hb, hab⟩⟩ := mem_ahead.1 hx
          rw [hy] at ha; cases ha
          rw [hw] at hb; cases hb
          have hl := (List.getElem?_eq_some_iff.1 hy).1
          rw [hS.length] at hl
          obtain ⟨z, hz, q1, q2⟩ := hS.entries x _ (List.getElem?_eq_getElem hl)
          rw [hy] at hz; cases hz
          have hxA : x ∉ A := by
            intro hxA
            rw [if_pos hxA] at q2
            unfold nextFreeEpoch at q2
            omega
          rw [if_neg hxA] at q2
          have hq : y.activation_eligibility_epoch =
              t.validators[x].activation_eligibility_epoch := by
            by_cases hJ : JoinsQueue E f t.validators[x]
            · rw [if_pos hJ] at q1; omega
            · rw [if_neg hJ] at q1; exact q1
          exact ⟨mem_ahead.2 ⟨⟨_, List.getElem?_eq_getElem hl, by omega, by omega⟩,
            ⟨_, v, List.getElem?_eq_getElem hl, hv, by omega⟩⟩, hxA⟩
        have hcount := both_within ahead_nodup hS.activated.once (fun x hx => (hsub x hx).2)
          (fun x hx => (hsub x hx).1) hin
        have hl := hlen hf
        have key : (ahead u i).length + slowest E f * (epochOf E u.slot - epochOf E s.slot) ≤
            (ahead s i).length := by
          rw [hS.epoch, show epochOf E t.slot + 1 - epochOf E s.slot =
            epochOf E t.slot - epochOf E s.slot + 1 by omega, Nat.mul_add, Nat.mul_one]
          omega
        refine ⟨⟨w, hw, by omega, by omega⟩, ?_, fun _ => key⟩
        have := within (e := epochOf E u.slot - epochOf E s.slot) (a := (ahead s i).length) (hk hf)
          (by omega)
        unfold turn
        rw [if_neg hf]
        omega

theorem onTime_block {b : BeaconBlock} (ho : Orderly E f t)
    (hb : epochOf E s.slot + turn E f s i + 1 + E.max_seed_lookahead < FAR_FUTURE_EPOCH)
    (hT : OnTime E f s i t) (h : process_block E f b t = .ok () u) : OnTime E f s i u := by
  obtain ⟨-, h1, h2, h3, h4⟩ := block_turn ho h
  rcases hT with ⟨v, hv, hle⟩ | ⟨⟨v, hv, hw1, hw2⟩, hle, hlen⟩
  · obtain ⟨w, hw, -, h5⟩ := h3 i v hv
    exact Or.inl ⟨w, hw, by omega⟩
  · obtain ⟨w, hw, h5, h6⟩ := h3 i v hv
    have hbound := (orderly_proper ho).finalized
    refine Or.inr ⟨⟨w, hw, by rw [h1]; omega, by omega⟩, by rw [h2]; exact hle, fun hf => ?_⟩
    rw [h2]
    refine Nat.le_trans (Nat.add_le_add_right ?_ _) (hlen hf)
    refine List.Subperm.length_le (List.Nodup.subperm ahead_nodup fun x hx => ?_)
    rw [mem_ahead] at hx ⊢
    obtain ⟨⟨y, hy, -, hy2⟩, ⟨a, b, ha, hb, hab⟩⟩ := hx
    rw [hy] at ha; cases ha
    rw [hw] at hb; cases hb
    cases hx : t.validators[x]? with
    | none => have := h4 x y hy hx; omega
    | some z =>
      obtain ⟨y', hy', q1, q2⟩ := h3 x z hx
      rw [hy] at hy'; cases hy'
      exact ⟨⟨z, hx, by omega, by omega⟩, ⟨z, v, hx, hv, by omega⟩⟩

theorem follows_onTime (ho : Orderly E f s) (hk : f ≠ .Electra → 0 < slowest E f)
    (hb : epochOf E s.slot + turn E f s i + 1 + E.max_seed_lookahead < FAR_FUTURE_EPOCH)
    (hw : WaitsInQueue s i) (h : Follows E f s t) :
    Orderly E f t ∧ epochOf E s.slot ≤ epochOf E t.slot ∧ OnTime E f s i t := by
  induction h with
  | start => exact ⟨ho, Nat.le_refl _, Or.inr ⟨hw, by omega, fun _ => by simp⟩⟩
  | slot _ h ih =>
    obtain ⟨i1, i2, i3⟩ := ih
    refine ⟨(slot_turn i1 h).1, ?_, onTime_slot i1 hk hb i2 i3 h⟩
    rcases (slot_turn i1 h).2.2 with ⟨q, -⟩ | ⟨j, A, q⟩
    · omega
    · have := q.epoch; omega
  | block _ h ih =>
    obtain ⟨i1, i2, i3⟩ := ih
    exact ⟨(block_turn i1 h).1, by rw [(block_turn i1 h).2.2.1]; exact i2,
      onTime_block i1 hb i3 h⟩

/-- Validator `i`, which joined in epoch `e`, is not overtaken by `j`. -/
def InOrder (E : Env) (e i j : Nat) (t : State) : Prop :=
  ∃ v, t.validators[i]? = some v ∧ v.activation_eligibility_epoch = e ∧ e ≤ epochOf E t.slot ∧
    (v.activation_epoch = FAR_FUTURE_EPOCH ∨ v.activation_epoch ≤ nextFreeEpoch E t) ∧
    ∀ w, t.validators[j]? = some w →
      w.activation_epoch = FAR_FUTURE_EPOCH ∧ (e < w.activation_eligibility_epoch ∨
        e = w.activation_eligibility_epoch ∧ i < j) ∨
      v.activation_epoch ≤ w.activation_epoch ∧ w.activation_epoch < FAR_FUTURE_EPOCH

theorem inOrder_slot {e : Nat} (ho : Orderly E f t)
    (hb : nextFreeEpoch E t < FAR_FUTURE_EPOCH) (hT : InOrder E e i j t)
    (h : process_slots E f (t.slot + 1) t = .ok () u) : InOrder E e i j u := by
  obtain ⟨ho', hfin, hst⟩ := slot_turn ho h
  obtain ⟨v, hv, rfl, he, hv1, hj⟩ := hT
  rcases hst with ⟨h1, h2⟩ | ⟨q, A, hS⟩
  · unfold InOrder nextFreeEpoch at *
    rw [h1, h2]
    exact ⟨v, hv, rfl, he, hv1, hj⟩
  · obtain ⟨w, hw, h3, h4⟩ := hS.entries i v hv
    unfold nextFreeEpoch at hb
    rw [if_neg fun h => by have := h.1; omega] at h3
    refine ⟨w, hw, h3, by rw [hS.epoch]; omega, ?_, fun x hx => ?_⟩
    · unfold nextFreeEpoch at *
      rw [hS.epoch]
      by_cases hA : i ∈ A
      · rw [if_pos hA] at h4; omega
      · rw [if_neg hA] at h4; omega
    · have hl := (List.getElem?_eq_some_iff.1 hx).1
      rw [hS.length] at hl
      have hy := List.getElem?_eq_getElem hl
      obtain ⟨z, hz, q1, q2⟩ := hS.entries j _ hy
      rw [hx] at hz; cases hz
      rcases hj _ hy with ⟨k1, k2⟩ | ⟨k1, k2⟩
      · by_cases hA : j ∈ A
        · right
          rw [if_pos hA] at q2
          unfold nextFreeEpoch at *
          refine ⟨?_, by omega⟩
          by_cases hiA : i ∈ A
          · rw [if_pos hiA] at h4; omega
          · rw [if_neg hiA] at h4
            rcases hv1 with hv1 | hv1
            · exfalso
              obtain ⟨y, hy', hy1, -⟩ := hS.activated.waiting j hA
              rw [hS.same, hy] at hy'; cases hy'
              have hi : WaitsInQueue q i := ⟨v, by rw [hS.same]; exact hv, by omega, hv1⟩
              obtain ⟨a, b, ha, hb', hab⟩ := (hS.activated.order i hi hiA).2.2 j hA
              rw [hS.same] at ha hb'
              rw [hy] at ha; cases ha
              rw [hv] at hb'; cases hb'
              omega
            · omega
        · left
          rw [if_neg hA] at q2
          refine ⟨by omega, ?_⟩
          by_cases hJ : JoinsQueue E f t.validators[j]
          · rw [if_pos hJ] at q1; omega
          · rw [if_neg hJ] at q1; omega
      · right
        have hA : j ∉ A := fun hA => by
          obtain ⟨y, hy', -, hy1⟩ := hS.activated.waiting j hA
          rw [hS.same, hy] at hy'; cases hy'
          omega
        have hiA : i ∉ A := fun hA => by
          obtain ⟨y, hy', -, hy1⟩ := hS.activated.waiting i hA
          rw [hS.same, hv] at hy'; cases hy'
          omega
        rw [if_neg hA] at q2
        rw [if_neg hiA] at h4
        omega

theorem inOrder_block {e : Nat} {b : BeaconBlock} (ho : Orderly E f t)
    (hb : nextFreeEpoch E t < FAR_FUTURE_EPOCH) (hT : InOrder E e i j t)
    (h : process_block E f b t = .ok () u) : InOrder E e i j u := by
  obtain ⟨-, h1, h2, h3, h4⟩ := block_turn ho h
  obtain ⟨v, hv, rfl, he, hv1, hj⟩ := hT
  obtain ⟨w, hw, h5, h6⟩ := h3 i v hv
  unfold nextFreeEpoch at hb
  refine ⟨w, hw, h5, by rw [h2]; exact he, by unfold nextFreeEpoch at *; rw [h2]; omega,
    fun x hx => ?_⟩
  cases hy : t.validators[j]? with
  | none => have := h4 j x hx hy; omega
  | some y =>
    obtain ⟨x', hx', q1, q2⟩ := h3 j y hy
    rw [hx] at hx'; cases hx'
    have := hj y hy
    omega

theorem follows_slot (h : Follows E f s t) : s.slot ≤ t.slot := by
  induction h with
  | start => exact Nat.le_refl _
  | slot _ h ih => rw [slot_step_slot (process_slots_one h)]; omega
  | block _ h ih => rw [show _ = _ from block_mod.ok h .slot (by decide)]; exact ih

theorem nextFree_mono (h : s.slot ≤ t.slot) : nextFreeEpoch E s ≤ nextFreeEpoch E t := by
  unfold nextFreeEpoch epochOf
  have := Nat.div_le_div_right (c := E.slots_per_epoch) h
  omega

theorem follows_inOrder {e : Nat} (ho : Orderly E f s) (hw : InOrder E e i j s)
    (h : Follows E f s t) (hb : nextFreeEpoch E t < FAR_FUTURE_EPOCH) :
    Orderly E f t ∧ InOrder E e i j t := by
  induction h with
  | start => exact ⟨ho, hw⟩
  | @slot t u _ h ih =>
    have hm := nextFree_mono (E := E) (s := t) (t := u)
      (by rw [slot_step_slot (process_slots_one h)]; omega)
    obtain ⟨i1, i2⟩ := ih (by omega)
    exact ⟨(slot_turn i1 h).1, inOrder_slot i1 (by omega) i2 h⟩
  | @block t u b _ h ih =>
    have hm : u.slot = t.slot := block_mod.ok h .slot (by decide)
    have hb' : nextFreeEpoch E t < FAR_FUTURE_EPOCH := by unfold nextFreeEpoch at *; rwa [← hm]
    obtain ⟨i1, i2⟩ := ih hb'
    exact ⟨(block_turn i1 h).1, inOrder_block i1 hb' i2 h⟩

end Turns

end Verif
