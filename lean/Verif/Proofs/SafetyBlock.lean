import Verif.Proofs.SafetyAltair
import Verif.Proofs.Sync
import Verif.Proofs.Deposits
import Verif.Proofs.Withdrawals

/-! # Blocks do not panic -/

namespace Verif

open Spec Props

variable {E : Env} {s s' : State}

theorem CalmM.pres {α : Type} {m : M α} {Q : α → State → Prop} {r : State → State → Prop}
    (h : CalmM m Q s) (hp : Pres r m) : CalmM m (fun a s' => Q a s' ∧ r s s') s := by
  have := hp s
  unfold CalmM wp at *
  split <;> simp_all

/-! ## Sync aggregates -/

/-- What one participant and the proposer get is a fraction of the stake. -/
theorem sync_rewards_calm (hE : SaneConfig E) (hq : SaneQuotients E)
    (hT : effectiveSum s ≤ 2 ^ 61) :
    Calm (sync_rewards E s) fun r => r.2 ≤ r.1 ∧
      32 * (r.1 * E.sync_committee_size) ≤ effectiveSum s + E.effective_balance_increment := by
  have hU : U64_BOUND = 2 ^ 64 := rfl
  have hspe := hE.slots_per_epoch
  have hpos := hE.effective_balance_increment
  have hi := hq.increment
  have hsz := hq.sync_committee
  unfold sync_rewards
  simp only [calm]
  refine (total_active_calm hE hq).mono fun t ⟨h1, h2, h3⟩ => ⟨by omega, ?_⟩
  refine (per_increment_calm hE hq).mono fun p hp => ?_
  have hm : p * (t / E.effective_balance_increment) ≤ t := by
    rw [Nat.mul_comm]
    exact Nat.le_trans (Nat.mul_le_mul_left _ hp) (Nat.div_mul_le_self _ _)
  have hw : SYNC_REWARD_WEIGHT = 2 := rfl
  have hd : WEIGHT_DENOMINATOR = 64 := rfl
  have hpw : PROPOSER_WEIGHT = 8 := rfl
  generalize p * (t / E.effective_balance_increment) = b at *
  rw [hw, hd, hpw]
  have hr : 32 * (b * 2 / 64 / E.slots_per_epoch / E.sync_committee_size * E.sync_committee_size) ≤
      b := by
    have e1 := Nat.div_mul_le_self (b * 2 / 64 / E.slots_per_epoch) E.sync_committee_size
    have e2 := Nat.div_le_self (b * 2 / 64) E.slots_per_epoch
    omega
  have hr' : b * 2 / 64 / E.slots_per_epoch / E.sync_committee_size ≤ b := by
    have e1 := Nat.div_le_self (b * 2 / 64 / E.slots_per_epoch) E.sync_committee_size
    have e2 := Nat.div_le_self (b * 2 / 64) E.slots_per_epoch
    omega
  have hr'' : b * 2 / 64 / E.slots_per_epoch / E.sync_committee_size ≤ b * 2 / 64 := by
    have e1 := Nat.div_le_self (b * 2 / 64 / E.slots_per_epoch) E.sync_committee_size
    have e2 := Nat.div_le_self (b * 2 / 64) E.slots_per_epoch
    omega
  generalize b * 2 / 64 / E.slots_per_epoch / E.sync_committee_size = r at *
  exact ⟨by omega, by omega, by decide, by omega, by omega, by omega, by decide, by decide,
    by omega, by omega⟩

theorem lastIndex_some {vs : List Validator} {k : PublicKey}
    (h : ∃ v ∈ vs, v.public_key = k) : ∃ i, lastIndexOfKey vs k = some i := by
  unfold lastIndexOfKey
  have key : ∀ (l : List (Validator × Nat)) (o : Option Nat),
      (∃ x ∈ l, x.1.public_key = k) ∨ o.isSome →
      (l.foldl (fun found (x : Validator × Nat) =>
        if x.1.public_key = k then some x.2 else found) o).isSome := by
    intro l
    induction l with
    | nil => rintro o (⟨x, hx, -⟩ | h); · simp at hx
             · exact h
    | cons x l ih =>
      rintro o h
      rw [List.foldl_cons]
      apply ih
      by_cases hx : x.1.public_key = k
      · simp [hx]
      · rw [if_neg hx]
        rcases h with ⟨y, hy, hk⟩ | h
        · rcases List.mem_cons.1 hy with rfl | hy
          · exact absurd hk hx
          · exact .inl ⟨y, hy, hk⟩
        · exact .inr h
  obtain ⟨v, hv, hk⟩ := h
  obtain ⟨i, hi⟩ := List.getElem?_of_mem hv
  have := key vs.zipIdx none (.inl ⟨(v, i), List.mem_zipIdx_iff_getElem?.2 hi, hk⟩)
  exact Option.isSome_iff_exists.1 this

theorem seats_calm (hk : ∀ k ∈ s.current_sync_committee.public_keys,
      ∃ v ∈ s.validators, v.public_key = k) :
    Calm (sync_committee_indices s) fun l =>
      l.length = s.current_sync_committee.public_keys.length ∧
        ∀ i ∈ l, i < s.validators.length := by
  unfold sync_committee_indices
  generalize s.current_sync_committee.public_keys = ks at *
  induction ks with
  | nil => simp [calm]
  | cons k ks ih =>
    obtain ⟨i, hi⟩ := lastIndex_some (hk k (by simp))
    rw [List.mapM_cons]
    simp only [hi, calm]
    refine (ih fun k' hk' => hk k' (by simp [hk'])).mono fun l ⟨h1, h2⟩ => ⟨by simp [h1], ?_⟩
    intro j hj
    rcases List.mem_cons.1 hj with rfl | hj
    · obtain ⟨v, hv, -⟩ := lastIndex_ok hi
      exact (List.getElem?_eq_some_iff.1 hv).1
    · exact h2 j hj

theorem sync_reward_calm (hE : SaneConfig E) {k a b : Nat} (hab : b ≤ a) (h : Wellformed E s)
    (hr : Room (k + 2 * a) s) {x : Nat × Bool} (hx : x.1 < s.validators.length) :
    CalmM (apply_sync_reward E a b x) (fun _ s' => Kept E k s s') s := by
  obtain ⟨c, hc⟩ : ∃ c, s.balances[x.1]? = some c :=
    ⟨_, List.getElem?_eq_getElem (by rw [h.balances]; exact hx)⟩
  have hbd := hr.balances c (List.mem_of_getElem? hc)
  unfold apply_sync_reward
  simp only [calm]
  refine ⟨fun _ => ?_, fun _ => decrease_balance_calm hc fun d hd =>
    ⟨h.balance, ((hr.two.lower hc hd).room).le (by omega), rfl, rfl⟩⟩
  refine increase_balance_calm hc (by omega) ?_
  have h1 : Wellformed E { s with balances := s.balances.set x.1 (c + a) } := h.balance
  have hr1 : Room (k + a) { s with balances := s.balances.set x.1 (c + a) } :=
    Spec.Room.raise (by rwa [show k + a + a = k + 2 * a by omega]) hc
  refine (proposer_calm hE h1).mono fun p hp => ?_
  obtain ⟨d, hd⟩ : ∃ d, (s.balances.set x.1 (c + a))[p]? = some d :=
    ⟨_, List.getElem?_eq_getElem (by rw [List.length_set, h.balances]; exact hp)⟩
  have hbd1 := hr1.balances d (List.mem_of_getElem? hd)
  refine increase_balance_calm hd (by omega) ⟨h1.balance, ?_, rfl, rfl⟩
  exact (hr1.le (k' := k + b) (by omega)).raise hd

theorem sync_aggregate_calm (hE : SaneConfig E) (hq : SaneQuotients E) {k : Nat}
    (h : Wellformed E s) (hr : Room (k + (effectiveSum s + E.effective_balance_increment)) s)
    (hT : effectiveSum s ≤ 2 ^ 61) (hs : 0 < s.slot)
    (hlen : s.current_sync_committee.public_keys.length ≤ E.sync_committee_size)
    (hk : ∀ k ∈ s.current_sync_committee.public_keys, ∃ v ∈ s.validators, v.public_key = k)
    (a : SyncAggregate) :
    CalmM (process_sync_aggregate E a) (fun _ s' => Kept E k s s') s := by
  have hspe := hE.slots_per_epoch
  unfold process_sync_aggregate compute_epoch_at_slot
  simp only [calm]
  refine ⟨by omega, by omega, (get_domain_calm hE).mono fun _ _ => ?_⟩
  refine (block_root_at_calm hE h hs).mono fun _ _ => ⟨fun _ => rfl, fun _ => ?_⟩
  refine (sync_rewards_calm hE hq hT).mono fun r ⟨h1, h2⟩ => ?_
  refine (seats_calm hk).mono fun l ⟨h3, h4⟩ => ?_
  have hn : (l.zip a.sync_committee_bits).length ≤ E.sync_committee_size := by
    rw [List.length_zip]; omega
  have hbudget : (l.zip a.sync_committee_bits).length * (2 * r.1) ≤
      effectiveSum s + E.effective_balance_increment := by
    have : (l.zip a.sync_committee_bits).length * (2 * r.1) ≤ E.sync_committee_size * (2 * r.1) :=
      Nat.mul_le_mul_right _ hn
    have e : E.sync_committee_size * (2 * r.1) = 2 * (r.1 * E.sync_committee_size) := by
      rw [Nat.mul_left_comm, Nat.mul_comm r.1]
    omega
  refine CalmM_forEach (fun rest s' => Kept E (k + rest.length * (2 * r.1)) s s' ∧
      ∀ x ∈ rest, x.1 < s.validators.length) ?_ (fun s' h => by simpa using h.1)
    ⟨⟨h, hr.le (by omega), rfl, rfl⟩, fun x hx => h4 _ (List.of_mem_zip hx).1⟩
  rintro x rest t ⟨g1, g2⟩
  refine (sync_reward_calm hE (k := k + rest.length * (2 * r.1)) h1 g1.wf (g1.room.le ?_)
    (by rw [g1.length]; exact g2 x (by simp))).mono fun _ t' g3 =>
      ⟨g1.trans g3, fun y hy => g2 y (by simp [hy])⟩
  rw [List.length_cons, Nat.add_mul]; omega

/-! ## Deposits -/

theorem increase_known_calm {k i d : Nat} (h : Wellformed E s) (hr : Room (k + d) s)
    (hi : i < s.validators.length) :
    CalmM (increase_balance i d) (fun _ s' => Kept E k s s' ∧ s'.validators = s.validators) s := by
  obtain ⟨c, hc⟩ : ∃ c, s.balances[i]? = some c :=
    ⟨_, List.getElem?_eq_getElem (by rw [h.balances]; exact hi)⟩
  have hbd := hr.balances c (List.mem_of_getElem? hc)
  exact increase_balance_calm hc (by omega) ⟨⟨h.balance, hr.raise hc, rfl, rfl⟩, rfl⟩

/-- What a deposit of amount `a` guarantees. -/
structure Deposited (E : Env) (k a : Nat) (s s' : State) : Prop where
  wf : Wellformed E s'
  room : Room k s'
  length : s'.validators.length ≤ s.validators.length + 1
  total : effectiveSum s' ≤ effectiveSum s + a
  slot : s'.slot = s.slot

theorem add_validator_calm (hE : SaneConfig E) {f : Fork} (hf : f ≠ .Electra) {k a : Nat}
    (h : Wellformed E s) (hr : Room (k + 2 * a) s) (hl : s.validators.length < 2 ^ 40)
    (pk : PublicKey) (w : Bytes32) :
    CalmM (add_validator_to_registry E f pk w a) (fun _ s' => Deposited E k a s s') s := by
  have hinc := hE.effective_balance_increment
  have hmax := hE.max_effective_balance
  have hslot := h.slot
  have hep := epochOf_le E s.slot
  unfold add_validator_to_registry
  simp only [calm]
  have hv : Calm (get_validator_from_deposit E f pk w a) fun v =>
      v.effective_balance ≤ a ∧ v.effective_balance ≤ 2 ^ 48 ∧ v.slashed = false ∧
        v.exit_epoch = FAR_FUTURE_EPOCH ∧
        v.activation_eligibility_epoch ≤ v.activation_epoch := by
    unfold get_validator_from_deposit
    have hm := Nat.mod_le a E.effective_balance_increment
    cases f <;> first | exact absurd rfl hf | skip
    all_goals
      simp only [calm]
      exact ⟨by omega, hm, by omega, by omega, trivial, trivial, Nat.le_refl _⟩
  refine hv.mono fun v ⟨h1, h2, h3, h4, h5⟩ => ?_
  have hat : ((s.validators ++ [v]).map fun v : Validator =>
      if v.slashed then 0 else v.effective_balance).sum = atStake s + v.effective_balance := by
    simp [atStake, h3]
  have hef : ((s.validators ++ [v]).map Validator.effective_balance).sum =
      effectiveSum s + v.effective_balance := by
    simp [effectiveSum]
  have hfar : FAR_FUTURE_EPOCH = 2 ^ 64 - 1 := rfl
  have hshape : (s.validators ++ [v]).length ≤ 2 ^ 40 := by simp; omega
  have hbl : (s.balances ++ [a]).length = (s.validators ++ [v]).length := by simp [h.balances]
  have heff : ∀ u ∈ s.validators ++ [v], u.effective_balance ≤ 2 ^ 48 := by
    intro u hu
    rcases List.mem_append.1 hu with hu | hu
    · exact h.effective u hu
    · simp only [List.mem_singleton] at hu; subst hu; exact h2
  have hexit : ∀ u ∈ s.validators ++ [v], u.exit_epoch < 2 ^ 64 := by
    intro u hu
    rcases List.mem_append.1 hu with hu | hu
    · exact h.exit u hu
    · simp only [List.mem_singleton] at hu; subst hu; omega
  have helig : ∀ u ∈ s.validators ++ [v],
      u.activation_eligibility_epoch ≤ u.activation_epoch := by
    intro u hu
    rcases List.mem_append.1 hu with hu | hu
    · exact h.eligible u hu
    · simp only [List.mem_singleton] at hu; subst hu; omega
  have hrs := hr.stake
  have hrb : ∀ b ∈ s.balances ++ [a], b + (atStake s + v.effective_balance) + k < 2 ^ 64 := by
    intro b hb
    rcases List.mem_append.1 hb with hb | hb
    · have := hr.balances b hb; omega
    · simp only [List.mem_singleton] at hb; subst hb; omega
  have hrl : ∀ b ∈ s.slashings, b + (atStake s + v.effective_balance) + k < 2 ^ 64 := by
    intro b hb; have := hr.slashings b hb; omega
  rw [← hat] at hrb hrl
  cases f <;> first | exact absurd rfl hf | skip
  all_goals
    simp only [calm]
    refine ⟨⟨⟨h.shaped.1, h.shaped.2, h.shaped.3, h.shaped.4, hshape, h.shaped.6⟩, hbl, h.slot,
      heff, hexit, helig⟩, ⟨?_, hrb, hrl⟩, by simp, ?_, rfl⟩
    · unfold atStake; rw [hat]; omega
    · show ((s.validators ++ [v]).map Validator.effective_balance).sum ≤ _
      rw [hef]; omega

theorem deposit_calm (hE : SaneConfig E) {f : Fork} (hf : f ≠ .Electra) {k : Nat} {d : Deposit}
    (h : Wellformed E s) (hr : Room (k + 2 * d.data.amount) s) (hl : s.validators.length < 2 ^ 40)
    (hi : s.eth1_deposit_index + 1 < 2 ^ 64) :
    CalmM (process_deposit E f d) (fun _ s' => Deposited E k d.data.amount s s' ∧
      s'.eth1_deposit_index = s.eth1_deposit_index + 1) s := by
  have key : CalmM (process_deposit E f d) (fun _ s' => Deposited E k d.data.amount s s') s := by
    unfold process_deposit
    simp only [calm]
    refine ⟨fun _ => rfl, fun _ => ⟨hi, ?_⟩⟩
    have hd : apply_deposit E f d.data.public_key d.data.withdrawal_credentials d.data.amount
        d.data.signature = Phase0.apply_deposit E f d.data.public_key
          d.data.withdrawal_credentials d.data.amount d.data.signature := by
      cases f <;> first | rfl | exact absurd rfl hf
    rw [hd]
    have h1 : Wellformed E { s with eth1_deposit_index := s.eth1_deposit_index + 1 } :=
      ⟨⟨h.shaped.1, h.shaped.2, h.shaped.3, h.shaped.4, h.shaped.5, h.shaped.6⟩, h.balances, h.slot,
        h.effective, h.exit, h.eligible⟩
    have hr1 : Room (k + 2 * d.data.amount)
        { s with eth1_deposit_index := s.eth1_deposit_index + 1 } :=
      ⟨hr.stake, hr.balances, hr.slashings⟩
    unfold Phase0.apply_deposit
    simp only [calm]
    split
    · rename_i i hfi
      have hlt : i < s.validators.length := (List.findIdx?_eq_some_iff_getElem.1 hfi).1
      refine (increase_known_calm (k := k) (s := { s with
        eth1_deposit_index := s.eth1_deposit_index + 1 }) h1 (hr1.le (by omega)) hlt).mono ?_
      rintro - s2 ⟨g1, g2⟩
      exact ⟨g1.wf, g1.room, by rw [g2]; simp, by rw [g1.total]; exact Nat.le_add_right _ _,
        g1.slot⟩
    · simp only [calm]
      refine ⟨fun _ => ?_, fun _ => ⟨h1, hr1.le (by omega), Nat.le_succ _, Nat.le_add_right _ _,
        rfl⟩⟩
      refine (add_validator_calm hE hf h1 hr1 hl _ _).mono ?_
      rintro - s2 g
      exact ⟨g.wf, g.room, g.length, g.total, g.slot⟩
  exact key.mono' fun _ s' hok g => ⟨g, (process_deposit_frame (Nat.ne_of_gt hE.effective_balance_increment) hok).2.index⟩

/-! ## Payloads and withdrawals -/

theorem settled_kept {k : Nat} {ws : List Withdrawal} (h : Wellformed E s)
    (hr : Room k s) (hd : Debited E s ws s') : Kept E k s s' := by
  have hv : s'.validators = s.validators := by rw [hd.rest]
  have hsl : s'.slashings = s.slashings := by rw [hd.rest]
  have hslot : s'.slot = s.slot := by rw [hd.rest]
  have hlen : s'.balances.length = s.balances.length := by
    have h1 := fun i => congrArg Option.isSome (hd.balances i)
    apply Nat.le_antisymm
    · by_contra hc
      have := h1 s.balances.length
      rw [List.getElem?_eq_getElem (by omega)] at this
      simp at this
    · by_contra hc
      have := h1 s'.balances.length
      rw [List.getElem?_eq_getElem (l := s.balances) (by omega)] at this
      simp at this
  have hat : atStake s' = atStake s := by unfold atStake; rw [hv]
  refine ⟨⟨⟨?_, ?_, ?_, ?_, ?_, ?_⟩, ?_, ?_, ?_, ?_, ?_⟩, ⟨?_, ?_, ?_⟩, by rw [hv], hslot⟩
  · rw [hd.rest]; exact h.shaped.1
  · rw [hd.rest]; exact h.shaped.2
  · rw [hd.rest]; exact h.shaped.3
  · rw [hd.rest]; exact h.shaped.4
  · rw [hd.rest]; exact h.shaped.5
  · rw [hd.rest]; exact h.shaped.6
  · rw [hv, hlen]; exact h.balances
  · rw [hslot]; exact h.slot
  · rw [hv]; exact h.effective
  · rw [hv]; exact h.exit
  · rw [hv]; exact h.eligible
  · rw [hat]; exact hr.stake
  · rw [hat]
    intro b hb
    obtain ⟨i, hi⟩ := List.getElem?_of_mem hb
    rw [hd.balances i, Option.map_eq_some_iff] at hi
    obtain ⟨c, hc, rfl⟩ := hi
    have := hr.balances c (List.mem_of_getElem? hc)
    omega
  · rw [hat, hsl]; exact hr.slashings

theorem withdrawals_calm (hE : SaneConfig E) {f : Fork} (hf : f ≠ .Electra) {k : Nat}
    (h : Wellformed E s) (hr : Room k s) (hs : SweepReady E s) (p : ExecutionPayload) :
    CalmM (process_withdrawals E f p) (fun _ s' => Kept E k s s') s := by
  obtain ⟨ws, -, h2⟩ := expected_eq hE hf hs
  unfold CalmM
  rw [process_withdrawals_eq hE hf hs h2]
  by_cases hp : p.withdrawals = ws
  · rw [if_pos hp]
    exact settled_kept h hr (debited_iff.2 rfl)
  · rw [if_neg hp]; rfl

theorem payload_calm (hE : SaneConfig E) {f : Fork} {k : Nat} (h : Wellformed E s) (hr : Room k s)
    (hc : ClockFits E s) (b : BeaconBlockBody) :
    CalmM (process_execution_payload E f b) (fun _ s' => Kept E k s s') s := by
  have hU : U64_BOUND = 2 ^ 64 := rfl
  have hg : GENESIS_SLOT = 0 := rfl
  unfold ClockFits at hc
  unfold process_execution_payload compute_timestamp_at_slot
  simp only [calm]
  refine ⟨fun _ => rfl, fun _ => current_epoch_calm hE ((randao_mix_calm hE h).mono fun _ _ =>
    ⟨fun _ => rfl, fun _ => fun _ => ?_⟩)⟩
  rw [hg, Nat.sub_zero]
  refine ⟨by omega, by omega, fun _ => rfl, fun _ => ?_⟩
  cases f <;> simp only [calm] <;>
  exact ⟨fun _ => rfl, fun _ => ⟨fun _ => rfl, fun _ =>
    ⟨⟨⟨h.shaped.1, h.shaped.2, h.shaped.3, h.shaped.4, h.shaped.5, h.shaped.6⟩, h.balances,
      h.slot, h.effective, h.exit, h.eligible⟩, ⟨hr.stake, hr.balances, hr.slashings⟩, rfl, rfl⟩⟩⟩

theorem block_payload_calm (hE : SaneConfig E) {f : Fork} (hf : f ≠ .Electra) {k : Nat}
    (h : Wellformed E s) (hr : Room k s) (hc : f.ord ≥ 2 → ClockFits E s)
    (hs : f.ord ≥ 3 → SweepReady E s) (b : BeaconBlock) :
    CalmM (process_block_payload E f b) (fun _ s' => Kept E k s s') s := by
  have hid : Kept E k s s := ⟨h, hr, rfl, rfl⟩
  unfold process_block_payload
  cases f <;> first | exact absurd rfl hf | skip
  · exact hid
  · exact hid
  · simp only [calm]
    exact ⟨fun _ => payload_calm hE h hr (hc (by decide)) _, fun _ => hid⟩
  all_goals
    simp only [calm]
    refine ((withdrawals_calm hE hf h hr (hs (by decide)) _).pres withdrawals_mod).mono ?_
    rintro - s1 ⟨g, hm⟩
    have e1 : s1.genesis_time = s.genesis_time := hm .genesis_time (by decide)
    refine (payload_calm hE g.wf g.room ?_ _).mono fun _ _ g' => g.trans g'
    unfold ClockFits
    rw [e1, g.slot]
    exact hc (by decide)

/-! ## Credential changes -/

theorem bls_change_calm {k : Nat} (h : Wellformed E s) (hr : Room k s)
    (op : SignedBlsToExecutionChange) :
    CalmM (process_bls_to_execution_change E op) (fun _ s' => Kept E k s s') s := by
  unfold process_bls_to_execution_change verify_signed_data
  simp only [calm]
  refine ⟨fun v hv => ⟨fun _ => rfl, fun _ => ⟨fun _ => rfl, fun _ => ⟨fun _ => rfl, fun _ =>
    ⟨v, hv, ?_⟩⟩⟩⟩, fun _ => rfl⟩
  exact ⟨h.set hv rfl (h.exit v (List.mem_of_getElem? hv)) rfl rfl, hr.set hv rfl id,
    map_effective_set hv rfl, rfl⟩

/-! ## Operations -/

/-- A loop of operations that need no room. -/
theorem kept_loop {α : Type} {xs : List α} {body : α → M Unit} {k : Nat}
    (hb : ∀ x s, Wellformed E s → Room k s → CalmM (body x) (fun _ s' => Kept E k s s') s)
    (h : Wellformed E s) (hr : Room k s) :
    CalmM (forEach xs body) (fun _ s' => Kept E k s s') s :=
  CalmM_forEach (fun _ s' => Kept E k s s')
    (fun x _ t g => (hb x t g.wf g.room).mono fun _ _ g' => g.trans g')
    (fun _ g => g) ⟨h, hr, rfl, rfl⟩

theorem attestation_calm (hE : SaneConfig E) (hq : SaneQuotients E) {f : Fork} (hf : f ≠ .Electra)
    {k : Nat} (h : Wellformed E s) (hr : Room (k + effectiveSum s) s) (hp : Parallel f s)
    (hT : effectiveSum s ≤ 2 ^ 57) (a : Attestation) :
    CalmM (process_attestation E f a) (fun _ s' => Kept E k s s') s := by
  unfold process_attestation
  cases f <;> first | exact absurd rfl hf | skip
  · exact phase0_attestation_calm hE h (hr.le (by omega)) a
  all_goals
    have := hp.2 (by decide)
    exact altair_attestation_calm hE hq h hr this.1 this.2.1 hT a

theorem attestations_calm (hE : SaneConfig E) (hq : SaneQuotients E) {f : Fork} (hf : f ≠ .Electra)
    {k : Nat} {l : List Attestation} (h : Wellformed E s)
    (hr : Room (k + l.length * effectiveSum s) s) (hp : Parallel f s)
    (hT : effectiveSum s ≤ 2 ^ 57) :
    CalmM (forEach l (process_attestation E f)) (fun _ s' => Kept E k s s') s := by
  refine CalmM_forEach (fun rest s' => Kept E (k + rest.length * effectiveSum s) s s' ∧
    Parallel f s') ?_ (fun s' g => by simpa using g.1) ⟨⟨h, hr, rfl, rfl⟩, hp⟩
  rintro a rest t ⟨g1, g2⟩
  have hroom : Room (k + rest.length * effectiveSum s + effectiveSum t) t := by
    apply g1.room.le
    rw [g1.total, List.length_cons, Nat.add_mul]; omega
  refine ((attestation_calm hE hq hf g1.wf hroom g2 (by rw [g1.total]; exact hT) a).pres
    (attestation_len (g := f))).mono ?_
  rintro - t' ⟨g3, g4⟩
  exact ⟨g1.trans g3, g4.parallel g2⟩

theorem deposits_calm (hE : SaneConfig E) {f : Fork} (hf : f ≠ .Electra)
    {k : Nat} {l : List Deposit} (h : Wellformed E s) (hr : Room (k + 2 * depositTotal l) s)
    (hl : s.validators.length + l.length ≤ 2 ^ 40)
    (hi : s.eth1_deposit_index + l.length < 2 ^ 64) :
    CalmM (forEach l (process_deposit E f)) (fun _ s' => Wellformed E s' ∧ Room k s' ∧
      effectiveSum s' ≤ effectiveSum s + depositTotal l ∧ s'.slot = s.slot) s := by
  refine CalmM_forEach (fun rest s' => Wellformed E s' ∧ Room (k + 2 * depositTotal rest) s' ∧
    s'.validators.length + rest.length ≤ 2 ^ 40 ∧ s'.eth1_deposit_index + rest.length < 2 ^ 64 ∧
    effectiveSum s' + depositTotal rest ≤ effectiveSum s + depositTotal l ∧ s'.slot = s.slot)
    ?_ ?_ ⟨h, hr, hl, hi, Nat.le_refl _, rfl⟩
  · rintro d rest t ⟨g1, g2, g3, g4, g5, g6⟩
    have e : depositTotal (d :: rest) = d.data.amount + depositTotal rest := by simp [depositTotal]
    rw [e] at g2 g5
    rw [List.length_cons] at g3 g4
    refine (deposit_calm hE hf (k := k + 2 * depositTotal rest) g1 (g2.le (by omega)) (by omega)
      (by omega)).mono ?_
    rintro - t' ⟨q, qi⟩
    have q1 := q.length
    have q2 := q.total
    exact ⟨q.wf, q.room, by omega, by omega, by omega, by rw [q.slot, g6]⟩
  · rintro t ⟨g1, g2, -, -, g5, g6⟩
    exact ⟨g1, g2.le (by omega), by omega, g6⟩

/-- After the operations. -/
structure Operated (E : Env) (k T : Nat) (s s' : State) : Prop where
  wf : Wellformed E s'
  room : Room k s'
  total : effectiveSum s' ≤ T
  slot : s'.slot = s.slot

theorem operations_calm (hE : SaneConfig E) (hq : SaneQuotients E) {f : Fork} (hf : f ≠ .Electra)
    {k : Nat} {b : BeaconBlockBody} (h : Wellformed E s)
    (hr : Room (k + 2 * depositTotal b.deposits + b.attestations.length * effectiveSum s) s)
    (hp : Parallel f s) (hT : effectiveSum s ≤ 2 ^ 57)
    (hl : s.validators.length + b.deposits.length ≤ 2 ^ 40)
    (hc : s.eth1_deposit_index ≤ s.eth1_data.deposit_count)
    (hd : s.eth1_data.deposit_count < 2 ^ 64) :
    CalmM (process_operations E f b)
      (fun _ s' => Operated E k (effectiveSum s + depositTotal b.deposits) s s') s := by
  unfold process_operations
  simp only [calm]
  have hcount : Calm (check_deposit_count E f s b) fun _ =>
      b.deposits.length ≤ s.eth1_data.deposit_count - s.eth1_deposit_index := by
    unfold check_deposit_count
    cases f <;> first | exact absurd rfl hf | skip
    all_goals
      simp only [calm]
      refine ⟨hc, fun _ => rfl, fun hlen => ?_⟩
      simp at hlen
      omega
  refine hcount.mono fun _ hcount => ?_
  refine (((kept_loop (fun op t h hr => proposer_slashing_calm hE hq hf h hr op) h hr).pres
    (Pres.forEach (changesPre _) fun _ => proposer_slashing_mod)).pres
      (Pres.forEach (lenPre f) fun _ => proposer_slashing_len)).mono ?_
  rintro - s1 ⟨⟨g1, m1⟩, l1⟩
  have d1 : s1.eth1_deposit_index = s.eth1_deposit_index := m1 .eth1_deposit_index (by decide)
  refine (((kept_loop (fun op t h hr => attester_slashing_calm hE hq hf h hr op) g1.wf
    g1.room).pres (Pres.forEach (changesPre _) fun _ => attester_slashing_mod)).pres
      (Pres.forEach (lenPre f) fun _ => attester_slashing_len)).mono ?_
  rintro - s2 ⟨⟨g2, m2⟩, l2⟩
  have d2 : s2.eth1_deposit_index = s1.eth1_deposit_index := m2 .eth1_deposit_index (by decide)
  have k2 := g1.trans g2
  have hp2 := l2.parallel (l1.parallel hp)
  refine ((attestations_calm hE hq hf (k := k + 2 * depositTotal b.deposits) k2.wf
    (by rw [k2.total]; exact k2.room) hp2 (by rw [k2.total]; exact hT)).pres
      (Pres.forEach (changesPre _) fun _ => attestation_mod)).mono ?_
  rintro - s3 ⟨g3, m3⟩
  have d3 : s3.eth1_deposit_index = s2.eth1_deposit_index := m3 .eth1_deposit_index (by decide)
  have k3 := k2.trans g3
  refine (deposits_calm hE hf k3.wf k3.room (by rw [k3.length]; exact hl) (by omega)).mono ?_
  rintro - s4 ⟨w4, r4, t4, c4⟩
  rw [k3.total] at t4
  rw [k3.slot] at c4
  refine (kept_loop (fun op t h hr => voluntary_exit_calm hE hq hf h hr op) w4 r4).mono ?_
  rintro - s5 g5
  have fin : Operated E k (effectiveSum s + depositTotal b.deposits) s s5 :=
    ⟨g5.wf, g5.room, by rw [g5.total]; exact t4, by rw [g5.slot, c4]⟩
  have last : CalmM (forEach b.bls_to_execution_changes (process_bls_to_execution_change E))
      (fun x s' => Operated E k (effectiveSum s + depositTotal b.deposits) s s') s5 := by
    refine (kept_loop (fun op t h hr => bls_change_calm h hr op) g5.wf g5.room).mono ?_
    rintro - s6 g6
    exact ⟨g6.wf, g6.room, by rw [g6.total]; exact fin.total, by rw [g6.slot]; exact fin.slot⟩
  cases f <;> first | exact absurd rfl hf | exact fin | exact last

/-! ## Blocks -/

theorem header_full_calm (hE : SaneConfig E) {f : Fork} {k : Nat} (h : Wellformed E s)
    (hr : Room k s) (b : BeaconBlock) :
    CalmM (process_block_header E f b) (fun _ s' => Kept E k s s' ∧ 0 < s.slot) s := by
  refine (header_calm hE h hr b).mono' fun _ s' hok g => ⟨g, ?_⟩
  unfold process_block_header at hok
  simp only [run] at hok
  have h1 : b.slot = s.slot := by simpa using hok.1
  have h2 : ¬ b.slot ≤ s.latest_block_header.slot := by simpa using hok.2.1
  omega

theorem atStake_le_effectiveSum : atStake s ≤ effectiveSum s := by
  unfold atStake effectiveSum
  induction s.validators with
  | nil => simp
  | cons v l ih =>
    simp only [List.map_cons, List.sum_cons]
    split <;> omega

theorem block_room {f : Fork} {b : BeaconBlockBody} (hb : BlockReady E f s b) :
    Room (2 ^ 63 + 2 ^ 62) s := by
  have := atStake_le_effectiveSum (s := s)
  have := hb.stake
  exact ⟨by omega, fun x hx => by have := hb.balances x hx; omega,
    fun x hx => by have := hb.slashings x hx; omega⟩

theorem keys_known (hk : ∀ k ∈ s.current_sync_committee.public_keys,
      ∃ v ∈ s.validators, v.public_key = k) (hr : Reg s s')
    (hc : s'.current_sync_committee = s.current_sync_committee) :
    ∀ k ∈ s'.current_sync_committee.public_keys, ∃ v ∈ s'.validators, v.public_key = k := by
  rw [hc]
  intro k hk'
  obtain ⟨v, hv, rfl⟩ := hk k hk'
  obtain ⟨i, hi⟩ := List.getElem?_of_mem hv
  obtain ⟨w, hw, hst⟩ := hr.1 i v hi
  exact ⟨w, List.mem_of_getElem? hw, hst.key⟩

theorem block_calm (hE : SaneConfig E) (hq : SaneQuotients E) {f : Fork} (hf : f ≠ .Electra)
    {b : BeaconBlock} (h : Wellformed E s) (hb : BlockReady E f s b.body) :
    CalmM (process_block E f b) (fun _ s' => Wellformed E s' ∧ s'.slot = s.slot) s := by
  have hinc := hq.increment
  have hst := hb.stake
  have hdep := hb.deposits
  have hatt : b.body.attestations.length * effectiveSum s ≤ 2 ^ 7 * 2 ^ 56 :=
    Nat.mul_le_mul hb.attestations hb.stake
  have hr := block_room hb
  unfold process_block
  simp only [calm]
  refine (((header_full_calm hE h hr b).pres header_mod).pres
    (len_mod (f := f) header_mod (by decide))).mono ?_
  rintro - s1 ⟨⟨⟨g1, hpos⟩, m1⟩, l1⟩
  have a1 : s1.validators = s.validators := m1 .validators (by decide)
  have a2 : s1.genesis_time = s.genesis_time := m1 .genesis_time (by decide)
  have a3 : s1.balances = s.balances := m1 .balances (by decide)
  have a4 : s1.next_withdrawal_index = s.next_withdrawal_index :=
    m1 .next_withdrawal_index (by decide)
  have a5 : s1.next_withdrawal_validator_index = s.next_withdrawal_validator_index :=
    m1 .next_withdrawal_validator_index (by decide)
  refine (((block_payload_calm hE hf g1.wf g1.room ?_ ?_ b).pres block_payload_mod).pres
    (block_payload_len (g := f))).mono ?_
  · intro hf'
    have := hb.clock hf'
    unfold ClockFits at *
    rw [a2, g1.slot]; exact this
  · intro hf'
    have := hb.sweep hf'
    exact ⟨this.payload, this.sweep, by rw [a5, a1]; exact this.cursor, by rw [a1]; exact this.registry,
      by rw [a1, a3]; exact this.balances, by rw [a4]; exact this.index, this.width⟩
  rintro - s2 ⟨⟨g2, m2⟩, l2⟩
  refine (((randao_calm hE g2.wf g2.room b.body).pres randao_mod).pres
    (randao_len (g := f))).mono ?_
  rintro - s3 ⟨⟨g3, m3⟩, l3⟩
  have b1 : s3.eth1_data_votes = s.eth1_data_votes :=
    (m3 .eth1_data_votes (by decide) : s3.eth1_data_votes = s2.eth1_data_votes).trans
      ((m2 .eth1_data_votes (by decide) : s2.eth1_data_votes = s1.eth1_data_votes).trans
        (m1 .eth1_data_votes (by decide)))
  have b2 : s3.eth1_data = s.eth1_data :=
    (m3 .eth1_data (by decide) : s3.eth1_data = s2.eth1_data).trans
      ((m2 .eth1_data (by decide) : s2.eth1_data = s1.eth1_data).trans
        (m1 .eth1_data (by decide)))
  have b3 : s3.eth1_deposit_index = s.eth1_deposit_index :=
    (m3 .eth1_deposit_index (by decide) : s3.eth1_deposit_index = s2.eth1_deposit_index).trans
      ((m2 .eth1_deposit_index (by decide) : s2.eth1_deposit_index = s1.eth1_deposit_index).trans
        (m1 .eth1_deposit_index (by decide)))
  have k3 := (g1.trans g2).trans g3
  have hp1 := l1.parallel hb.parallel
  refine (((eth1_calm hE hq g3.wf g3.room (by rw [b1]; exact hb.votes) b.body).pres
    (len_mod (f := f) eth1_mod (by decide))).pres eth1_mod).mono ?_
  rintro - s4 ⟨⟨⟨g4, c1, c2⟩, l4⟩, m4⟩
  have k4 := k3.trans g4
  have hp4 := l4.parallel (l3.parallel (l2.parallel hp1))
  have hcount : s4.eth1_deposit_index ≤ s4.eth1_data.deposit_count ∧
      s4.eth1_data.deposit_count < 2 ^ 64 := by
    rw [c1, b3]
    rcases c2 with e | e <;> rw [e]
    · rw [b2]; exact ⟨hb.deposit_count.1, hb.count_u64.1⟩
    · exact ⟨hb.deposit_count.2, hb.count_u64.2⟩
  have hroom : Room (2 ^ 61 + 2 * depositTotal b.body.deposits +
      b.body.attestations.length * effectiveSum s4) s4 := by
    rw [k4.total]
    exact k4.room.le (by omega)
  refine (((operations_calm hE hq hf k4.wf hroom hp4 (by rw [k4.total]; omega)
    (by rw [k4.length]; exact hb.registry) hcount.1 hcount.2).pres operations_mod).pres
      (operations_reg hE)).mono ?_
  rintro - s5 ⟨⟨g5, m5⟩, r5⟩
  have e5 : s5.slot = s.slot := g5.slot.trans k4.slot
  have t5 := g5.total
  rw [k4.total] at t5
  have hsync : f ≠ .Phase0 → CalmM (process_sync_aggregate E b.body.sync_aggregate)
      (fun _ s' => Wellformed E s' ∧ s'.slot = s.slot) s5 := by
    intro hf0
    obtain ⟨q1, q2⟩ := hb.committee hf0
    have c4 : s4.current_sync_committee = s.current_sync_committee :=
      (m4 .current_sync_committee (by decide) :
        s4.current_sync_committee = s3.current_sync_committee).trans
      ((m3 .current_sync_committee (by decide) :
        s3.current_sync_committee = s2.current_sync_committee).trans
      ((m2 .current_sync_committee (by decide) :
        s2.current_sync_committee = s1.current_sync_committee).trans
        (m1 .current_sync_committee (by decide))))
    have c5 : s5.current_sync_committee = s4.current_sync_committee :=
      m5 .current_sync_committee (by decide)
    have v4 : s4.validators = s.validators :=
      (m4 .validators (by decide) : s4.validators = s3.validators).trans
      ((m3 .validators (by decide) : s3.validators = s2.validators).trans
      ((m2 .validators (by decide) : s2.validators = s1.validators).trans a1))
    have q4 : ∀ k ∈ s4.current_sync_committee.public_keys,
        ∃ v ∈ s4.validators, v.public_key = k := by rw [c4, v4]; exact q2
    refine (sync_aggregate_calm hE hq (k := 0) g5.wf (g5.room.le (by omega)) (by omega)
      (by omega) (by rw [c5, c4]; exact q1) (keys_known q4 r5 c5) _).mono ?_
    rintro - s6 g6
    exact ⟨g6.wf, g6.slot.trans e5⟩
  cases f <;> first | exact absurd rfl hf | exact ⟨g5.wf, e5⟩ | exact hsync (by decide)

end Verif
