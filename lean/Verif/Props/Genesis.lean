import Verif.Proofs.Genesis
import Verif.Props.Operations

/-! # C49: genesis -/

namespace Verif.Props

open Spec

/-- **C49** The registry holds one entry for each deposit that is signed and the first such one for its
key, in order, with everything deposited for the key from then on. Nothing is left in the queue of
deposits. -/
theorem C49_registry (E : Env) (hE : SaneConfig E) (f : Fork) (hash : Bytes32) (time : Nat)
    (ds : List Deposit) (header : Option ExecutionPayloadHeader) (s : State)
    (h : initialize_beacon_state_from_eth1 E f hash time ds header = .ok s) :
    GenesisRegistry E f (ds.map (·.data)) s ∧ s.pending_balance_deposits = [] := by
  unfold initialize_beacon_state_from_eth1 genesis_candidate at h
  simp only [run] at h
  obtain ⟨_, ⟨gt, _, rfl⟩, h⟩ := h
  rw [runLocal_eq_ok] at h
  have := genesis_fill_ok (Nat.ne_of_gt hE.effective_balance_increment)
    ⟨rfl, rfl, by simp [openers], by simp, fun _ => rfl, by simp [defaultState]⟩ rfl h
  exact ⟨this.1, this.2.1⟩

/-- **C49** In particular no key has two entries, and every signed deposit has one for its key. -/
theorem C49_one_per_key (E : Env) (hE : SaneConfig E) (f : Fork) (hash : Bytes32) (time : Nat)
    (ds : List Deposit) (header : Option ExecutionPayloadHeader) (s : State)
    (h : initialize_beacon_state_from_eth1 E f hash time ds header = .ok s) :
    (∀ (i i' : Nat) (v v' : Validator), s.validators[i]? = some v → s.validators[i']? = some v' →
      v.public_key = v'.public_key → i = i') ∧
    (∀ v ∈ s.validators, ∃ d ∈ ds, DepositSigned E d.data ∧ d.data.public_key = v.public_key) ∧
    ∀ d ∈ ds, DepositSigned E d.data → ∃ v ∈ s.validators, v.public_key = d.data.public_key := by
  obtain ⟨hr, -⟩ := C49_registry E hE f hash time ds header s h
  have key : ∀ (i : Nat) (v : Validator), s.validators[i]? = some v →
      ∃ j a, (openers E (ds.map (·.data)))[i]? = some j ∧ (ds.map (·.data))[j]? = some a ∧
        Opens E (ds.map (·.data)) j ∧ v.public_key = a.public_key := by
    intro i v hv
    have hi := (List.getElem?_eq_some_iff.mp hv).1
    rw [hr.validators] at hi
    have ho := List.getElem?_eq_getElem hi
    generalize (openers E (ds.map (·.data)))[i] = j at ho
    have ha := List.getElem?_eq_getElem (opens_lt (openers_opens ho))
    have := (hr.entry i j _ ho ha).1
    cases hv.symm.trans this
    exact ⟨j, _, ho, ha, openers_opens ho, rfl⟩
  refine ⟨?_, ?_, ?_⟩
  · intro i i' v v' hv hv' hk
    obtain ⟨j, a, ho, ha, hop, hka⟩ := key i v hv
    obtain ⟨j', a', ho', ha', hop', hka'⟩ := key i' v' hv'
    have := opens_key hop hop' ha ha' (by rw [← hka, ← hka', hk])
    subst this
    exact openers_inj ho ho'
  · intro v hv
    obtain ⟨i, hi, hiv⟩ := List.mem_iff_getElem.mp hv
    obtain ⟨j, a, -, ha, ⟨x, hx, sx, -⟩, hka⟩ := key i v (by rw [← hiv]; exact List.getElem?_eq_getElem _)
    cases ha.symm.trans hx
    obtain ⟨d, hd, rfl⟩ := List.mem_map.mp (List.mem_of_getElem? ha)
    exact ⟨d, hd, sx, hka.symm⟩
  · intro d hd sg
    obtain ⟨n, hn⟩ := List.mem_iff_getElem?.mp (List.mem_map_of_mem (f := (·.data)) hd)
    obtain ⟨j, a, hop, ha, hka⟩ := signed_opened n hn sg
    obtain ⟨i, ho⟩ := opens_mem hop
    exact ⟨_, List.mem_of_getElem? (hr.entry i j a ho ha).1, hka⟩

/-- **C49** Those validators, and only those, are active from the first epoch on whose deposits reach
the maximum effective balance. -/
theorem C49_activated (E : Env) (hE : SaneConfig E) (f : Fork) (hash : Bytes32) (time : Nat)
    (ds : List Deposit) (header : Option ExecutionPayloadHeader) (s : State)
    (h : initialize_beacon_state_from_eth1 E f hash time ds header = .ok s) (i : Nat) :
    i ∈ activeIndices s 0 ↔ ∃ j d, (openers E (ds.map (·.data)))[i]? = some j ∧
      (ds.map (·.data))[j]? = some d ∧
      E.max_effective_balance ≤ deposited (ds.map (·.data)) j d.public_key -
        deposited (ds.map (·.data)) j d.public_key % E.effective_balance_increment := by
  obtain ⟨hr, -⟩ := C49_registry E hE f hash time ds header s h
  generalize ds.map (·.data) = l at hr
  have key : ∀ (j : Nat) (d : DepositData), (openers E l)[i]? = some j → l[j]? = some d →
      (i ∈ activeIndices s 0 ↔ E.max_effective_balance ≤ deposited l j d.public_key -
        deposited l j d.public_key % E.effective_balance_increment) := by
    intro j d ho hd
    have hv := (hr.entry i j d ho hd).1
    have hi := (List.getElem?_eq_some_iff.mp hv).1
    have h2 : depositEffective E (deposited l j d.public_key) = E.max_effective_balance ↔
        E.max_effective_balance ≤ deposited l j d.public_key -
          deposited l j d.public_key % E.effective_balance_increment := by
      unfold depositEffective; omega
    unfold activeIndices
    rw [List.mem_filter, hv, List.mem_range]
    simp only [hi, true_and, decide_eq_true_eq]
    unfold ActiveAt genesisValidator
    dsimp only
    by_cases he : depositEffective E (deposited l j d.public_key) = E.max_effective_balance
    · rw [if_pos he]
      exact ⟨fun _ => h2.mp he, fun _ => ⟨Nat.le_refl _, by decide⟩⟩
    · rw [if_neg he]
      exact ⟨fun hh => absurd hh.1 (by decide), fun hh => absurd (h2.mpr hh) he⟩
  constructor
  · intro hm
    have hi : i < (openers E l).length := by
      have := (List.mem_filter.mp hm).1
      rw [List.mem_range, hr.validators] at this
      exact this
    have ho := List.getElem?_eq_getElem hi
    generalize (openers E l)[i] = j at ho
    have hd := List.getElem?_eq_getElem (opens_lt (openers_opens ho))
    exact ⟨j, _, ho, hd, (key j _ ho hd).mp hm⟩
  · rintro ⟨j, d, ho, hd, hle⟩
    exact (key j d ho hd).mpr hle

/-- **C49** The rest of the state: the time of the eth1 block with the delay, slot 0, all deposits
consumed, each proven in the tree of those up to it, and the root of the registry. -/
theorem C49_state (E : Env) (hE : SaneConfig E) (f : Fork) (hash : Bytes32) (time : Nat)
    (ds : List Deposit) (header : Option ExecutionPayloadHeader) (s : State)
    (h : initialize_beacon_state_from_eth1 E f hash time ds header = .ok s) :
    s.genesis_time = time + E.genesis_delay ∧ s.slot = 0 ∧
    s.fork.current_version = s.fork.previous_version ∧
    s.fork.current_version = fork_version_for E.toContext f ∧ s.fork.epoch = 0 ∧
    s.randao_mixes = List.replicate E.epochs_per_historical_vector hash ∧
    s.eth1_data.block_hash = hash ∧ s.eth1_data.deposit_count = ds.length ∧
    s.eth1_deposit_index = ds.length ∧
    (ds ≠ [] → s.eth1_data.deposit_root = E.deposit_data_list_root (ds.map (·.data))) ∧
    s.genesis_validators_root = E.validators_root s.validators ∧
    ∀ k d, ds[k]? = some d → E.is_valid_merkle_branch (E.deposit_data_root d.data) d.proof 33
      k (E.deposit_data_list_root ((ds.take (k + 1)).map (·.data))) = true := by
  unfold initialize_beacon_state_from_eth1 genesis_candidate at h
  simp only [run] at h
  obtain ⟨_, ⟨gt, ⟨rfl, -⟩, rfl⟩, h⟩ := h
  rw [runLocal_eq_ok] at h
  obtain ⟨-, -, h3, h4, h5, h6⟩ := genesis_fill_ok (Nat.ne_of_gt hE.effective_balance_increment)
    ⟨rfl, rfl, by simp [openers], by simp, fun _ => rfl, by simp [defaultState]⟩ rfl h
  have hm := (genesis_fill_mod (E := E) (f := f) (ds := ds)).ok h
  have hf := hm .fork (by decide)
  have hslot := hm .slot (by decide)
  have htime := hm .genesis_time (by decide)
  have hmix := hm .randao_mixes (by decide)
  simp only [Field.same] at hf hslot htime hmix
  refine ⟨htime, hslot, by rw [hf], by rw [hf], by rw [hf]; rfl, hmix, by rw [h5], by rw [h5], h3,
    ?_, h4, h6⟩
  intro hds
  rw [h5, if_neg hds]

/-- **C49** In electra genesis fails unless all deposits are signed; before, it ignores those that are
not. -/
theorem C49_electra_signed (E : Env) (hash : Bytes32) (time : Nat)
    (ds : List Deposit) (header : Option ExecutionPayloadHeader) (s : State)
    (h : initialize_beacon_state_from_eth1 E .Electra hash time ds header = .ok s) :
    ∀ d ∈ ds, DepositSigned E d.data := by
  unfold initialize_beacon_state_from_eth1 genesis_candidate genesis_fill at h
  simp only [run, runLocal_eq_ok] at h
  obtain ⟨_, _, t, h1, _⟩ := h
  exact electra_genesis_signed h1

/-- **C49** In phase0 genesis succeeds whenever the deposits are proven and no number gets too big. -/
theorem C49_succeeds (E : Env) (hE : SaneConfig E) (hash : Bytes32) (time : Nat)
    (ds : List Deposit) (header : Option ExecutionPayloadHeader)
    (htime : time + E.genesis_delay < 2 ^ 64) (hcount : ds.length < 2 ^ 64)
    (htotal : (ds.map (·.data.amount)).sum < 2 ^ 64)
    (hproof : ∀ k d, ds[k]? = some d → E.is_valid_merkle_branch (E.deposit_data_root d.data)
      d.proof 33 k (E.deposit_data_list_root ((ds.take (k + 1)).map (·.data))) = true) :
    ∃ s, initialize_beacon_state_from_eth1 E .Phase0 hash time ds header = .ok s := by
  have hinc := Nat.ne_of_gt hE.effective_balance_increment
  unfold initialize_beacon_state_from_eth1 genesis_candidate
  simp only [run, runLocal_eq_ok]
  generalize hs0 : ({ defaultState E with
    genesis_time := time + E.genesis_delay
    fork := ⟨fork_version_for E.toContext .Phase0, fork_version_for E.toContext .Phase0,
      GENESIS_EPOCH⟩
    eth1_data := { defaultEth1Data with block_hash := hash, deposit_count := ds.length }
    latest_block_header := { defaultHeader with body_root := E.body_root .Phase0 (defaultBody E) }
    randao_mixes := List.replicate E.epochs_per_historical_vector hash
    latest_execution_payload_header := header.getD defaultPayloadHeader } : State) = s0
  have hent : Entries E .Phase0 [] s0 := by
    subst hs0
    exact ⟨rfl, rfl, by simp [openers], by simp, fun _ => rfl, by simp [defaultState]⟩
  have hi : s0.eth1_deposit_index = 0 := by subst hs0; rfl
  obtain ⟨t, ht⟩ := genesis_deposits_progress (f := .Phase0) (by decide) hinc (ds := ds) hent hi
    (by simpa using hcount) (by simpa [depositTotal, Function.comp_def] using htotal)
    (by simpa using hproof)
  obtain ⟨k1, -⟩ := genesis_deposits_entries hinc hent hi ht
  obtain ⟨u, hu⟩ := activate_progress hinc (xs := List.range t.validators.length) (s := t) (by
    intro i hi
    rw [List.mem_range] at hi
    exact ⟨hi, by rw [k1.balances, ← k1.validators]; exact hi⟩)
  refine ⟨{ u with genesis_validators_root := E.validators_root u.validators }, s0,
    ⟨_, ⟨rfl, htime⟩, hs0⟩, ?_⟩
  unfold genesis_fill genesis_pending_deposits genesis_sync_committees
  simp only [run]
  exact ⟨t, ht, _, ⟨trivial, rfl⟩, u, hu, trivial, rfl⟩

/-- **C49** A state is a valid genesis state exactly when its time is not before the configured minimum
and enough validators are active in the first epoch. -/
theorem C49_valid_iff (E : Env) (s : State) :
    is_valid_genesis_state E s = true ↔ E.min_genesis_time ≤ s.genesis_time ∧
      E.min_genesis_active_validator_count ≤ (activeIndices s 0).length := by
  unfold is_valid_genesis_state
  rw [activeIndices_eq]
  split
  · simp only [Bool.false_eq_true, false_iff, not_and]; omega
  · rw [decide_eq_true_iff]
    simp only [GENESIS_EPOCH]
    omega

/-! ### A genesis with ignored, late and additional deposits -/

/-- The deposit tree proves any deposit that is its last. -/
def lastLeafEnv : Env :=
  { Toy.env with deposit_data_list_root := fun ds => Toy.root (ds.getLast?.elim 0 (·.amount)) }

def lastLeafDeposit (key amount : Nat) (sig : Signature) : Deposit :=
  ⟨[], ⟨Toy.pk key, zeroBytes 32, amount, sig⟩⟩

def lastLeafDeposits : List Deposit := [
  lastLeafDeposit 0 32000000000 Toy.goodSig,
  lastLeafDeposit 1 31000000000 Toy.badSig,
  lastLeafDeposit 1 16000000000 Toy.goodSig,
  lastLeafDeposit 2 20000000000 Toy.goodSig,
  lastLeafDeposit 0 1000000000 Toy.badSig,
  lastLeafDeposit 1 16000000000 Toy.badSig]

example : openers lastLeafEnv (lastLeafDeposits.map (·.data)) = [0, 2, 3] := by decide +kernel

example : (match initialize_beacon_state_from_eth1 lastLeafEnv .Phase0 (Toy.root 4) 10
      lastLeafDeposits none with
    | .ok s => decide (s.balances = [33000000000, 32000000000, 20000000000] ∧
        activeIndices s 0 = [0, 1])
    | .error _ => false) = true := by decide +kernel

end Verif.Props
