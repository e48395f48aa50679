import Verif.Proofs.Config
import Verif.Examples.Toy

/-!
# C01–C05: shuffling, committees, proposer
-/

namespace Verif.Props

open Spec

/-! ## C01 -/

/-- **C01** For every hash function, seed, round count and length `n` (up to `2^63`,
so that the sums of the code fit in 64 bits): `compute_shuffled_index` rejects
exactly the indices `≥ n`; on the others it computes the swap-or-not shuffle of the
specification, stays below `n`, and is one-to-one and onto. -/
theorem C01_compute_shuffled_index_permutation (E : Env) (seed : Bytes32) (n : Nat)
    (hn : 2 * n < U64_BOUND) :
    (∀ i, (∃ j, compute_shuffled_index E i n seed = .ok j) ↔ i < n) ∧
    (∀ i, n ≤ i → compute_shuffled_index E i n seed = .error .invalidShufflingIndex) ∧
    (∀ i j, compute_shuffled_index E i n seed = .ok j →
      j < n ∧ j = shuffledIndex E.hash seed n E.shuffle_round_count i) ∧
    (∀ i i' j, compute_shuffled_index E i n seed = .ok j →
      compute_shuffled_index E i' n seed = .ok j → i = i') ∧
    (∀ j, j < n → ∃ i, i < n ∧ compute_shuffled_index E i n seed = .ok j) := by
  have hge : ∀ i, n ≤ i → compute_shuffled_index E i n seed = .error .invalidShufflingIndex :=
    fun i hi => compute_shuffled_index_ge E seed hi
  have hlt : ∀ i j, compute_shuffled_index E i n seed = .ok j → i < n := by
    intro i j h
    by_contra hi
    rw [hge i (by omega)] at h
    cases h
  have hval : ∀ i, i < n → compute_shuffled_index E i n seed =
      .ok (shuffledIndex E.hash seed n E.shuffle_round_count i) :=
    fun i hi => compute_shuffled_index_eq E seed hn hi
  refine ⟨fun i => ⟨fun ⟨j, h⟩ => hlt i j h, fun hi => ⟨_, hval i hi⟩⟩, hge, ?_, ?_, ?_⟩
  · intro i j h
    have hi := hlt i j h
    rw [hval i hi] at h
    cases h
    exact ⟨shuffledIndex_lt E seed _ hi, rfl⟩
  · intro i i' j h h'
    have hi := hlt i j h
    have hi' := hlt i' j h'
    rw [hval i hi] at h
    rw [hval i' hi'] at h'
    cases h
    exact shuffledIndex_inj E seed _ hi hi' (by injection h' with h'; exact h'.symm)
  · intro j hj
    obtain ⟨i, hi, h⟩ := shuffledIndex_surj E seed E.shuffle_round_count hj
    exact ⟨i, hi, by rw [hval i hi, h]⟩

/-- A concrete shuffle of ten elements. -/
example : (List.range 10).map (fun i => compute_shuffled_index Toy.env i 10 (Toy.root 5)) =
    [6, 8, 0, 1, 7, 4, 9, 3, 2, 5].map .ok := by decide +kernel

example : 2 * 10 < U64_BOUND := by decide

/-! ## C02 -/

/-- **C02** For every list, seed and hash function, and at least one round: element
`x` of the optimised list shuffle is the element of the input at the position given
by the per-index shuffle. -/
theorem C02_list_shuffle_eq_index_shuffle (E : Env) (seed : Bytes32) (xs : List Nat)
    (hn : 2 * xs.length < U64_BOUND) (hr : 0 < E.shuffle_round_count) :
    ∃ ys, compute_shuffled_indices E xs seed = .ok ys ∧ ys.length = xs.length ∧ ys.Perm xs ∧
      ∀ x, x < xs.length → ∃ j, compute_shuffled_index E x xs.length seed = .ok j ∧
        ys[x]? = xs[j]? := by
  obtain ⟨ys, h1, h2, h3⟩ := compute_shuffled_indices_eq E seed xs hn hr
  refine ⟨ys, h1, h2, ?_, fun x hx => ⟨_, compute_shuffled_index_eq E seed hn hx, h3 x hx⟩⟩
  have := compute_shuffled_indices_list E seed xs hn hr
  rw [h1] at this
  cases this
  exact shuffledList_perm E seed xs

/-- **C02** (cargo feature) `compute_committee` does not depend on the `shuffling`
feature, for valid committee indices. -/
theorem C02_committee_feature_independent (E : Env) (b : Bool) (seed : Bytes32) (xs : List Nat)
    (index count : Nat) (hi : index < count) (hn : 2 * xs.length < U64_BOUND)
    (hc : xs.length * count < U64_BOUND) (hcount : count < U64_BOUND)
    (hr : 0 < E.shuffle_round_count) :
    compute_committee { E with shuffling := b } xs seed index count =
      compute_committee E xs seed index count := by
  rw [compute_committee_eq E seed xs index count hi hn hc hcount hr]
  exact compute_committee_eq { E with shuffling := b } seed xs index count hi hn hc hcount hr

/-- The proposer search loop, as a function of its candidates, only looks at the
candidates' values. -/
theorem proposer_loop_congr (E E' : Env) (h1 : E.hash = E'.hash)
    (h2 : E.max_effective_balance = E'.max_effective_balance) (s : State) (seed : Bytes32)
    (c c' : Nat → R Nat) (hc : ∀ k, c k = c' k) (fuel k : Nat) :
    proposer_loop E s seed c fuel k = proposer_loop E' s seed c' fuel k := by
  induction fuel generalizing k with
  | zero => rfl
  | succ fuel ih =>
    simp only [proposer_loop, hc, ih, sample_proposer_index, h1, h2]

theorem candidates_eq (E : Env) (seed : Bytes32) (xs : List Nat) (hx : xs ≠ [])
    (hn : 2 * xs.length < U64_BOUND) (k : Nat) :
    (do let j ← compute_shuffled_index E (k % xs.length) xs.length seed
        idx xs j : R Nat) = .ok (candidate E xs seed k) := by
  have hpos : 0 < xs.length := List.length_pos_iff.2 hx
  have hk := Nat.mod_lt k hpos
  have := shuffledIndex_lt E seed E.shuffle_round_count hk
  rw [compute_shuffled_index_eq E seed hn hk, R_bind_ok, idx_ok this]
  simp [candidate, this]

theorem compute_proposer_index_eq_loop (E : Env) (s : State) (seed : Bytes32) (xs : List Nat)
    (hx : xs ≠ []) (hn : 2 * xs.length < U64_BOUND) (hr : 0 < E.shuffle_round_count) :
    compute_proposer_index E s xs seed =
      proposer_loop E s seed (fun k => .ok (candidate E xs seed k)) E.fuel 0 := by
  have hpos : 0 < xs.length := List.length_pos_iff.2 hx
  unfold compute_proposer_index
  rw [show xs.isEmpty = false by simpa using hx, rejectIf_false, R_bind_ok]
  simp only
  split
  · rw [compute_shuffled_indices_list E seed xs hn hr, R_bind_ok]
    refine proposer_loop_congr E E rfl rfl s seed _ _ (fun k => ?_) _ _
    have hk := Nat.mod_lt k hpos
    have hl := shuffledIndex_lt E seed E.shuffle_round_count hk
    rw [idx_ok (by rw [length_shuffledList]; exact hk)]
    simp [shuffledList, candidate]
  · exact proposer_loop_congr E E rfl rfl s seed _ _
      (fun k => candidates_eq E seed xs hx hn k) _ _

/-- **C02** (cargo feature) Nor does proposer selection. -/
theorem C02_proposer_feature_independent (E : Env) (b : Bool) (s : State) (seed : Bytes32)
    (xs : List Nat) (hn : 2 * xs.length < U64_BOUND) (hr : 0 < E.shuffle_round_count) :
    compute_proposer_index { E with shuffling := b } s xs seed =
      compute_proposer_index E s xs seed := by
  by_cases hx : xs = []
  · subst hx; rfl
  · rw [compute_proposer_index_eq_loop E s seed xs hx hn hr]
    rw [compute_proposer_index_eq_loop { E with shuffling := b } s seed xs hx hn hr]
    exact proposer_loop_congr { E with shuffling := b } E rfl rfl s seed _ _ (fun _ => rfl) _ _

example : compute_shuffled_indices Toy.env (List.range 10) (Toy.root 5) =
    .ok [6, 8, 0, 1, 7, 4, 9, 3, 2, 5] := by decide +kernel

example : 0 < Toy.env.shuffle_round_count := by decide

/-! ## C03, C04 -/

theorem get_beacon_committee_eq (E : Env) (hE : SaneConfig E) (s : State) (hs : Shaped E s)
    (epoch : Nat) (he : epoch < 2 ^ 48) (count : Nat)
    (hcount : get_committee_count_per_slot E s epoch = .ok count) (t i : Nat)
    (ht : t < E.slots_per_epoch) (hi : i < count) :
    get_beacon_committee E s (epoch * E.slots_per_epoch + t) i =
      .ok (piece (shuffledList E (seedAt E s epoch .BeaconAttester) (activeIndices s epoch))
        (count * E.slots_per_epoch) (t * count + i)) := by
  have hspe := hE.slots_per_epoch
  have hm := hE.max_committees_per_slot
  have hcnt : count ≤ 2 ^ 8 := by
    rw [committee_count_eq hE] at hcount
    injection hcount with hcount
    omega
  have hlen : (activeIndices s epoch).length ≤ 2 ^ 40 := by
    rw [← activeIndices_eq]; exact Nat.le_trans (length_active_le s epoch) hs.registry
  have hU : U64_BOUND = 2 ^ 64 := rfl
  have hprod : count * E.slots_per_epoch ≤ 2 ^ 8 * 2 ^ 8 := Nat.mul_le_mul hcnt hspe.2
  have htc : t * count + i < count * E.slots_per_epoch := by
    calc t * count + i < t * count + count := by omega
      _ = (t + 1) * count := by rw [Nat.add_mul, Nat.one_mul]
      _ ≤ E.slots_per_epoch * count := Nat.mul_le_mul_right _ ht
      _ = count * E.slots_per_epoch := Nat.mul_comm _ _
  have hLC : (activeIndices s epoch).length * (count * E.slots_per_epoch) ≤
      2 ^ 40 * (2 ^ 8 * 2 ^ 8) := Nat.mul_le_mul hlen hprod
  have hdiv : (epoch * E.slots_per_epoch + t) / E.slots_per_epoch = epoch := by
    rw [Nat.mul_comm, Nat.mul_add_div hspe.1, Nat.div_eq_of_lt ht, Nat.add_zero]
  have hmod : (epoch * E.slots_per_epoch + t) % E.slots_per_epoch = t := by
    rw [Nat.mul_comm, Nat.mul_add_mod, Nat.mod_eq_of_lt ht]
  have htc' : t * count < 2 ^ 17 := by omega
  unfold get_beacon_committee compute_epoch_at_slot
  rw [div_ok (by omega), R_bind_ok, hdiv, hcount, R_bind_ok]
  simp only
  rw [get_seed_eq hE hs (by omega), R_bind_ok, mod_ok (by omega), R_bind_ok, hmod,
    mul_ok (by omega), R_bind_ok, add_ok (by omega), R_bind_ok, mul_ok (by omega), R_bind_ok,
    activeIndices_eq]
  exact compute_committee_eq E _ _ _ _ htc (by omega) (by omega) (by omega)
    hE.shuffle_round_count

/-- **C03** In every shaped state and epoch (before epoch `2^48`): every committee of
the epoch can be computed, and all the committees of all slots of the epoch, put one
after the other, are a rearrangement of the list of active validators: every active
validator appears exactly once, nobody else appears. -/
theorem C03_committees_partition (E : Env) (hE : SaneConfig E) (s : State) (hs : Shaped E s)
    (epoch : Nat) (he : epoch < 2 ^ 48) :
    ∃ count, get_committee_count_per_slot E s epoch = .ok count ∧
    ∃ committee : Nat → Nat → List Nat,
      (∀ t i, t < E.slots_per_epoch → i < count →
        get_beacon_committee E s (epoch * E.slots_per_epoch + t) i = .ok (committee t i)) ∧
      ((List.range E.slots_per_epoch).flatMap fun t =>
        (List.range count).flatMap fun i => committee t i).Perm (activeIndices s epoch) := by
  refine ⟨_, committee_count_eq hE s epoch, _,
    fun t i ht hi => get_beacon_committee_eq E hE s hs epoch he _
      (committee_count_eq hE s epoch) t i ht hi, ?_⟩
  rw [flatMap_flatMap_range (piece _ _), Nat.mul_comm, flatMap_pieces_all]
  · exact shuffledList_perm _ _ _
  · have := hE.slots_per_epoch
    exact Nat.mul_pos (by omega) (by omega)

/-- **C03** (exactly one committee) In every epoch every active validator belongs to
exactly one committee. -/
theorem C03_exactly_one_committee (E : Env) (hE : SaneConfig E) (s : State) (hs : Shaped E s)
    (epoch : Nat) (he : epoch < 2 ^ 48) (v : Nat) (val : Validator)
    (hv : s.validators[v]? = some val) (hact : ActiveAt val epoch) :
    ∃ count, get_committee_count_per_slot E s epoch = .ok count ∧
    ∃ t i, t < E.slots_per_epoch ∧ i < count ∧
      (∃ c, get_beacon_committee E s (epoch * E.slots_per_epoch + t) i = .ok c ∧ c.count v = 1) ∧
      ∀ t' i', t' < E.slots_per_epoch → i' < count →
        ∀ c, get_beacon_committee E s (epoch * E.slots_per_epoch + t') i' = .ok c →
          v ∈ c → t' = t ∧ i' = i := by
  obtain ⟨count, hcount, committee, hc, hp⟩ := C03_committees_partition E hE s hs epoch he
  refine ⟨count, hcount, ?_⟩
  have hnodup : (activeIndices s epoch).Nodup :=
    List.Nodup.filter _ List.nodup_range
  have hmem : v ∈ activeIndices s epoch := mem_activeIndices.2 ⟨val, hv, hact⟩
  have hmem' := hp.symm.subset hmem
  have hnd := hp.nodup_iff.2 hnodup
  simp only [List.mem_flatMap, List.mem_range] at hmem'
  obtain ⟨t, ht, i, hi, hvc⟩ := hmem'
  rw [List.nodup_flatMap] at hnd
  obtain ⟨hnd1, hnd2⟩ := hnd
  refine ⟨t, i, ht, hi, ⟨_, hc t i ht hi, ?_⟩, ?_⟩
  · have h1 := hnd1 t (List.mem_range.2 ht)
    rw [List.nodup_flatMap] at h1
    exact List.count_eq_one_of_mem (h1.1 i (List.mem_range.2 hi)) hvc
  · intro t' i' ht' hi' c hcc hvc'
    rw [hc t' i' ht' hi'] at hcc
    injection hcc with hcc
    subst hcc
    have htt : t' = t := by
      by_contra hne
      have hpw := List.pairwise_iff_getElem.1 hnd2
      have key : ∀ a b, a < b → b < E.slots_per_epoch →
          (∃ i, i < count ∧ v ∈ committee a i) → (∃ i, i < count ∧ v ∈ committee b i) → False := by
        intro a b hab hb ⟨x, hx, h1⟩ ⟨y, hy, h2⟩
        have := hpw a b (by simp; omega) (by simpa using hb) hab
        simp only [List.getElem_range] at this
        refine this (List.mem_flatMap.2 ⟨x, List.mem_range.2 hx, h1⟩)
          (List.mem_flatMap.2 ⟨y, List.mem_range.2 hy, h2⟩)
      rcases Nat.lt_or_gt_of_ne hne with h | h
      · exact key _ _ h ht ⟨_, hi', hvc'⟩ ⟨_, hi, hvc⟩
      · exact key _ _ h ht' ⟨_, hi, hvc⟩ ⟨_, hi', hvc'⟩
    subst htt
    refine ⟨rfl, ?_⟩
    by_contra hne
    have h1 := hnd1 t' (List.mem_range.2 ht)
    rw [List.nodup_flatMap] at h1
    have hpw := List.pairwise_iff_getElem.1 h1.2
    have key : ∀ a b, a < b → b < count → v ∈ committee t' a → v ∈ committee t' b → False := by
      intro a b hab hb h1 h2
      have := hpw a b (by simp; omega) (by simpa using hb) hab
      simp only [List.getElem_range] at this
      exact this h1 h2
    rcases Nat.lt_or_gt_of_ne hne with h | h
    · exact key _ _ h hi hvc' hvc
    · exact key _ _ h hi' hvc hvc'

/-- **C04** The number of committees per slot is between 1 and
`max_committees_per_slot`. -/
theorem C04_committee_count_bounds (E : Env) (hE : SaneConfig E) (s : State) (epoch : Nat) :
    ∃ count, get_committee_count_per_slot E s epoch = .ok count ∧ 1 ≤ count ∧
      count ≤ E.max_committees_per_slot := by
  refine ⟨_, committee_count_eq hE s epoch, by omega, ?_⟩
  have := hE.max_committees_per_slot
  omega

theorem piece_len_bounds (xs : List Nat) (count k : Nat) (hk : k < count) :
    xs.length / count ≤ (piece xs count k).length ∧
      (piece xs count k).length ≤ xs.length / count + 1 := by
  rw [length_piece xs count k hk]
  have hc : 0 < count := by omega
  have e : xs.length * (k + 1) = xs.length * k + xs.length := by rw [Nat.mul_add, Nat.mul_one]
  rw [e]
  have h1 : xs.length * k / count + xs.length / count ≤ (xs.length * k + xs.length) / count :=
    Nat.div_add_div_le_add_div
  have h2 : (xs.length * k + xs.length) / count ≤
      xs.length * k / count + xs.length / count + 1 := by
    rw [Nat.add_div hc]; split <;> omega
  generalize (xs.length * k + xs.length) / count = a at *
  generalize xs.length * k / count = b at *
  generalize xs.length / count = c at *
  omega

/-- **C04** Any two committees of an epoch differ in size by at most one. -/
theorem C04_committee_sizes_balanced (E : Env) (hE : SaneConfig E) (s : State) (hs : Shaped E s)
    (epoch : Nat) (he : epoch < 2 ^ 48) (count : Nat)
    (hcount : get_committee_count_per_slot E s epoch = .ok count)
    (t i t' i' : Nat) (ht : t < E.slots_per_epoch) (hi : i < count)
    (ht' : t' < E.slots_per_epoch) (hi' : i' < count) (c c' : List Nat)
    (h : get_beacon_committee E s (epoch * E.slots_per_epoch + t) i = .ok c)
    (h' : get_beacon_committee E s (epoch * E.slots_per_epoch + t') i' = .ok c') :
    c.length ≤ c'.length + 1 := by
  have aux : ∀ t i, t < E.slots_per_epoch → i < count → t * count + i < count * E.slots_per_epoch := by
    intro t i ht hi
    calc t * count + i < t * count + count := by omega
      _ = (t + 1) * count := by rw [Nat.add_mul, Nat.one_mul]
      _ ≤ E.slots_per_epoch * count := Nat.mul_le_mul_right _ ht
      _ = count * E.slots_per_epoch := Nat.mul_comm _ _
  rw [get_beacon_committee_eq E hE s hs epoch he count hcount t i ht hi] at h
  rw [get_beacon_committee_eq E hE s hs epoch he count hcount t' i' ht' hi'] at h'
  injection h with h
  injection h' with h'
  subst h h'
  have h1 := piece_len_bounds (shuffledList E (seedAt E s epoch .BeaconAttester)
    (activeIndices s epoch)) _ _ (aux t i ht hi)
  have h2 := piece_len_bounds (shuffledList E (seedAt E s epoch .BeaconAttester)
    (activeIndices s epoch)) _ _ (aux t' i' ht' hi')
  omega

theorem toy_sane : SaneConfig Toy.env := by constructor <;> decide

theorem toy_shaped : Shaped Toy.env (Toy.state 20 9) := by constructor <;> decide

example : get_beacon_committee Toy.env (Toy.state 20 9) 9 0 = .ok [13, 5, 15] := by decide +kernel

example : get_committee_count_per_slot Toy.env (Toy.state 20 9) 1 = .ok 1 := by decide +kernel

/-! ## C05 -/

theorem proposer_loop_spec (E : Env) (s : State) (seed : Bytes32) (cand : Nat → Nat)
    (hcand : ∀ k, ∃ v, s.validators[cand k]? = some v ∧ v.effective_balance * 255 < U64_BOUND)
    (hm : E.max_effective_balance * 255 < U64_BOUND) (fuel k p : Nat) :
    proposer_loop E s seed (fun k => .ok (cand k)) fuel k = .ok p ↔
      ∃ d, d < fuel ∧ p = cand (k + d) ∧ Accepts E s seed (k + d) p ∧
        ∀ j < d, ¬ Accepts E s seed (k + j) (cand (k + j)) := by
  induction fuel generalizing k with
  | zero => simp [proposer_loop]
  | succ fuel ih =>
    obtain ⟨v, hv, hb⟩ := hcand k
    have hsample : sample_proposer_index E s (cand k) k seed =
        .ok (decide (v.effective_balance * 255 ≥
          E.max_effective_balance * randomByte E seed k)) := by
      have hlen : (E.hash (seed.toList ++ leBytes 8 (k / 32))).toList.length = 32 := by simp
      have hk32 : k % 32 < 32 := Nat.mod_lt _ (by decide)
      have hbyte : (E.hash (seed.toList ++ leBytes 8 (k / 32))).toList[k % 32]?.getD 0 =
          (E.hash (seed.toList ++ leBytes 8 (k / 32))).toList[k % 32]'(by rw [hlen]; exact hk32) := by
        rw [List.getElem?_eq_getElem (by rw [hlen]; exact hk32)]; rfl
      have hrb : randomByte E seed k ≤ 255 := by
        unfold randomByte
        have := UInt8.toNat_lt ((E.hash (seed.toList ++ leBytes 8 (k / 32))).toList.getD (k % 32) 0)
        omega
      have hmul : E.max_effective_balance * randomByte E seed k ≤ E.max_effective_balance * 255 :=
        Nat.mul_le_mul_left _ hrb
      unfold sample_proposer_index
      rw [idx_ok (by rw [hlen]; exact hk32), R_bind_ok]
      rw [show idx s.validators (cand k) = .ok v from idx_eq_ok.2 hv, R_bind_ok, mul_ok hb,
        R_bind_ok]
      have hrb' : randomByte E seed k =
          ((E.hash (seed.toList ++ leBytes 8 (k / 32))).toList[k % 32]'(by
            rw [hlen]; exact hk32)).toNat := by
        unfold randomByte
        rw [List.getD_eq_getElem?_getD, hbyte]
      rw [← hrb', mul_ok (by omega), R_bind_ok, R_pure]
    have hacc : Accepts E s seed k (cand k) ↔
        E.max_effective_balance * randomByte E seed k ≤ v.effective_balance * 255 := by
      unfold Accepts
      constructor
      · rintro ⟨w, hw, h⟩
        have hvw := Option.some.inj (hv.symm.trans hw)
        rw [hvw]; exact h
      · intro h; exact ⟨v, hv, h⟩
    rw [proposer_loop]
    simp only [R_bind_ok, hsample]
    by_cases hA : Accepts E s seed k (cand k)
    · rw [if_pos (by simpa using hacc.1 hA)]
      constructor
      · intro h
        injection h with h
        subst h
        exact ⟨0, by omega, rfl, hA, by simp⟩
      · rintro ⟨d, hd, hp, ha, hnone⟩
        have : d = 0 := by
          by_contra hne
          exact hnone 0 (by omega) hA
        subst this
        rw [hp]; rfl
    · rw [if_neg (by simpa using fun h => hA (hacc.2 h)), ih]
      constructor
      · rintro ⟨d, hd, hp, ha, hnone⟩
        refine ⟨d + 1, by omega, by rw [hp]; congr 1; omega,
          by rw [show k + (d + 1) = k + 1 + d by omega]; exact ha, ?_⟩
        intro j hj
        cases j with
        | zero => exact hA
        | succ j =>
          have := hnone j (by omega)
          rwa [show k + 1 + j = k + (j + 1) by omega] at this
      · rintro ⟨d, hd, hp, ha, hnone⟩
        cases d with
        | zero => rw [Nat.add_zero] at hp ha; exact absurd (hp ▸ ha) hA
        | succ d =>
          refine ⟨d, by omega, by rw [hp]; congr 1; omega,
            by rw [show k + 1 + d = k + (d + 1) by omega]; exact ha, ?_⟩
          intro j hj
          have := hnone (j + 1) (by omega)
          rwa [show k + (j + 1) = k + 1 + j by omega] at this

/-- The proposer seed of a slot. -/
def proposerSeed (E : Env) (s : State) : Bytes32 :=
  E.hash ((seedAt E s (epochOf E s.slot) .BeaconProposer).toList ++ leBytes 8 s.slot)

theorem candidate_active (E : Env) (s : State) (seed : Bytes32) (e : Nat)
    (hne : activeIndices s e ≠ []) (k : Nat) :
    ∃ v, s.validators[candidate E (activeIndices s e) seed k]? = some v ∧ ActiveAt v e := by
  apply mem_activeIndices.1
  have hpos : 0 < (activeIndices s e).length := List.length_pos_iff.2 hne
  have := shuffledIndex_lt E seed E.shuffle_round_count (Nat.mod_lt k hpos)
  simp only [candidate, List.getD_eq_getElem?_getD, List.getElem?_eq_getElem this, Option.getD_some]
  exact List.getElem_mem _

/-- **C05** In every shaped state whose effective balances are below `2^56`:
`get_beacon_proposer_index` returns `p` exactly when `p` is the first accepted
candidate of the epoch's active validators in shuffled order (found within the fuel
that stands for "the loop ends"); such a `p` is active in the current epoch. -/
theorem C05_proposer_first_accepted (E : Env) (hE : SaneConfig E) (s : State) (hs : Shaped E s)
    (hslot : s.slot < 2 ^ 63)
    (hbal : ∀ v ∈ s.validators, v.effective_balance < 2 ^ 56)
    (hne : activeIndices s (epochOf E s.slot) ≠ []) (p : Nat) :
    (get_beacon_proposer_index E s = .ok p ↔
      ∃ k, k < E.fuel ∧
        FirstAccepted E s (activeIndices s (epochOf E s.slot)) (proposerSeed E s) k p) ∧
    (get_beacon_proposer_index E s = .ok p →
      ∃ v, s.validators[p]? = some v ∧ ActiveAt v (epochOf E s.slot)) := by
  have hspe := hE.slots_per_epoch
  have hU : U64_BOUND = 2 ^ 64 := rfl
  have hlen : (activeIndices s (epochOf E s.slot)).length ≤ 2 ^ 40 := by
    rw [← activeIndices_eq]; exact Nat.le_trans (length_active_le s _) hs.registry
  have hep : s.slot / E.slots_per_epoch ≤ s.slot := Nat.div_le_self _ _
  have hm := hE.max_effective_balance
  have key : get_beacon_proposer_index E s =
      proposer_loop E s (proposerSeed E s)
        (fun k => .ok (candidate E (activeIndices s (epochOf E s.slot)) (proposerSeed E s) k))
        E.fuel 0 := by
    unfold get_beacon_proposer_index get_current_epoch compute_epoch_at_slot
    rw [div_ok (by omega), R_bind_ok, get_seed_eq hE hs (by omega), R_bind_ok]
    simp only
    rw [activeIndices_eq]
    exact compute_proposer_index_eq_loop E s _ _ hne (by rw [hU]; unfold epochOf at hlen; omega)
      hE.shuffle_round_count
  have hiff : get_beacon_proposer_index E s = .ok p ↔
      ∃ k, k < E.fuel ∧
        FirstAccepted E s (activeIndices s (epochOf E s.slot)) (proposerSeed E s) k p := by
    rw [key, proposer_loop_spec]
    · simp only [Nat.zero_add, FirstAccepted]
    · intro k
      obtain ⟨v, hv, -⟩ := candidate_active E s (proposerSeed E s) _ hne k
      refine ⟨v, hv, ?_⟩
      have := hbal v (List.mem_of_getElem? hv)
      omega
    · omega
  refine ⟨hiff, fun h => ?_⟩
  obtain ⟨k, -, hp, -⟩ := hiff.1 h
  rw [hp]
  exact candidate_active E s (proposerSeed E s) _ hne k

/-- **C05** With no active validator the call fails with an error, it does not
panic and does not return. -/
theorem C05_no_active_validator (E : Env) (hE : SaneConfig E) (s : State) (hs : Shaped E s)
    (hslot : s.slot < 2 ^ 63) (hnone : activeIndices s (epochOf E s.slot) = []) :
    get_beacon_proposer_index E s = .error .collectionCannotBeEmpty := by
  have hspe := hE.slots_per_epoch
  have hep : s.slot / E.slots_per_epoch ≤ s.slot := Nat.div_le_self _ _
  unfold get_beacon_proposer_index get_current_epoch compute_epoch_at_slot
  rw [div_ok (by omega), R_bind_ok, get_seed_eq hE hs (by omega), R_bind_ok]
  simp only
  rw [activeIndices_eq, show activeIndices s (s.slot / E.slots_per_epoch) = [] from hnone]
  rfl

/-- **C05** The proposer does not depend on the `shuffling` feature. -/
theorem C05_feature_independent (E : Env) (hE : SaneConfig E) (s : State) (hs : Shaped E s)
    (b : Bool) :
    get_beacon_proposer_index { E with shuffling := b } s = get_beacon_proposer_index E s := by
  have hlen : ∀ e, 2 * (get_active_validator_indices s e).length < U64_BOUND := by
    intro e
    have := Nat.le_trans (length_active_le s e) hs.registry
    have hU : U64_BOUND = 2 ^ 64 := rfl
    omega
  unfold get_beacon_proposer_index
  have h1 : get_current_epoch { E with shuffling := b } s = get_current_epoch E s := rfl
  have h2 : ∀ e, get_seed { E with shuffling := b } s e .BeaconProposer =
    get_seed E s e .BeaconProposer := fun _ => rfl
  rw [h1]
  simp only [h2, C02_proposer_feature_independent E b s _ _ (hlen _) hE.shuffle_round_count]

example : get_beacon_proposer_index Toy.env (Toy.state 20 9) = .ok 4 := by decide +kernel

example : activeIndices (Toy.state 20 9) (epochOf Toy.env 9) ≠ [] := by decide

example : ∀ v ∈ (Toy.state 20 9).validators, v.effective_balance < 2 ^ 56 := by decide

end Verif.Props
