import Verif.Spec.Supply
import Verif.Proofs.Ends
import Verif.Proofs.Rotation
import Verif.Props.Ledger
import Verif.Props.Ends
import Verif.Props.Queues
import Verif.Props.Attestations
import Mathlib.Algebra.BigOperators.Group.Finset.Basic
import Mathlib.Algebra.Order.BigOperators.Group.Finset
import Mathlib.Algebra.BigOperators.Ring.Finset
import Mathlib.Tactic.Ring
import Mathlib.Tactic.GCongr

/-! # The supply of money over epochs -/

namespace Verif

open Spec Props Classical

/-! ## Sums -/

theorem together_eq (b : Nat → Nat) (n : Nat) : together b n = ∑ i ∈ Finset.range n, b i := by
  unfold together
  rw [← List.sum_toFinset b List.nodup_range]
  exact Finset.sum_congr (by ext; simp) fun _ _ => rfl

theorem listed_sum_le {g : Nat → Nat} {l : List Nat} {n : Nat} (hl : l.Nodup)
    (hn : ∀ i ∈ l, i < n) : (l.map g).sum ≤ ∑ i ∈ Finset.range n, if i ∈ l then g i else 0 := by
  rw [← List.sum_toFinset g hl, ← Finset.sum_filter]
  refine le_of_eq (Finset.sum_congr ?_ fun _ _ => rfl)
  ext i
  simp only [List.mem_toFinset, Finset.mem_filter, Finset.mem_range]
  exact ⟨fun h => ⟨hn i h, h⟩, fun h => h.2⟩

/-- Lists of the same length, one below the other with an allowance for each entry. -/
theorem sum_le_allow {g : Nat → Nat} : ∀ {l m : List Nat}, l.length = m.length →
    (∀ (i : Nat) x y, l[i]? = some x → m[i]? = some y → x ≤ y + g i) →
    l.sum ≤ m.sum + ∑ i ∈ Finset.range m.length, g i := by
  intro l m
  induction l using List.reverseRecOn generalizing m with
  | nil =>
    intro h _
    cases m with
    | nil => simp
    | cons => simp at h
  | append_singleton l x ih =>
    intro h h'
    rcases List.eq_nil_or_concat m with rfl | ⟨m, y, rfl⟩
    · simp at h
    · simp only [List.concat_eq_append, List.length_append, List.length_singleton,
        Nat.add_right_cancel_iff] at h
      simp only [List.concat_eq_append] at h' ⊢
      have k1 := ih h fun i x' y' hx hy => h' i x' y'
        (by rw [List.getElem?_append_left (List.getElem?_eq_some_iff.1 hx).1]; exact hx)
        (by rw [List.getElem?_append_left (List.getElem?_eq_some_iff.1 hy).1]; exact hy)
      have k2 := h' m.length x y (by rw [← h]; simp) (by simp)
      simp only [List.sum_append, List.sum_singleton, List.length_append, List.length_singleton,
        Finset.sum_range_succ]
      omega

/-! ## What is still open to be earned -/

/-- The weights of the flags not in `P`. -/
noncomputable def lackWeight (P : Nat → Prop) : Nat :=
  (([0, 1, 2].filter fun j => decide (¬ P j)).map flagWeight).sum

theorem lack_le (P : Nat → Prop) : lackWeight P ≤ 54 := by
  unfold lackWeight
  by_cases h0 : P 0 <;> by_cases h1 : P 1 <;> by_cases h2 : P 2 <;>
    simp [h0, h1, h2, flagWeight]

theorem lack_eq (P Q : Nat → Prop) (h : ∀ j < 8, P j ↔ Q j) : lackWeight P = lackWeight Q := by
  unfold lackWeight
  simp only [List.filter_cons, List.filter_nil, h 0 (by decide), h 1 (by decide), h 2 (by decide)]

theorem lack_anti {P Q : Nat → Prop} (h : ∀ j, P j → Q j) : lackWeight Q ≤ lackWeight P := by
  unfold lackWeight
  have h0 := h 0; have h1 := h 1; have h2 := h 2
  by_cases p0 : P 0 <;> by_cases p1 : P 1 <;> by_cases p2 : P 2 <;>
  by_cases q0 : Q 0 <;> by_cases q1 : Q 1 <;> by_cases q2 : Q 2 <;>
    simp_all [flagWeight]

theorem lack_none (P : Nat → Prop) (h : ∀ j < 8, ¬ P j) : lackWeight P = 54 := by
  rw [lack_eq P (fun _ => False) (fun j hj => iff_of_false (h j hj) id)]
  simp [lackWeight, flagWeight]

theorem lack_gain {P Q : Nat → Prop} {fl : List Nat} (h : ∀ j, P j ∨ j ∈ fl → Q j) :
    lackWeight Q + (([0, 1, 2].filter fun j => decide (j ∈ fl ∧ ¬ P j)).map flagWeight).sum ≤
      lackWeight P := by
  unfold lackWeight
  have h0 := h 0; have h1 := h 1; have h2 := h 2
  by_cases p0 : P 0 <;> by_cases p1 : P 1 <;> by_cases p2 : P 2 <;>
  by_cases q0 : Q 0 <;> by_cases q1 : Q 1 <;> by_cases q2 : Q 2 <;>
  by_cases f0 : 0 ∈ fl <;> by_cases f1 : 1 ∈ fl <;> by_cases f2 : 2 ∈ fl <;>
    simp_all [flagWeight]

/-- What is open for the flags `l`. -/
noncomputable def openOf (b : Nat → Nat) (n : Nat) (l : List UInt8) : Nat :=
  ∑ i ∈ Finset.range n, b i * lackWeight fun j => FlagSet (l.getD i 0) j

theorem open_le (b : Nat → Nat) (n : Nat) (l : List UInt8) : openOf b n l ≤ 54 * together b n := by
  rw [together_eq, Finset.mul_sum]
  refine Finset.sum_le_sum fun i _ => ?_
  rw [Nat.mul_comm]
  exact Nat.mul_le_mul_right _ (lack_le _)

section Blocks

variable {E : Env} {f : Fork} {s s' : State} {blk : BeaconBlock} {b : Nat → Nat} {n : Nat}

/-- Flag `j` of `i` for the current epoch, or for the previous one, after the attestations
`done`. -/
def Earned (E : Env) (f : Fork) (s : State) (done : List Attestation) (now : Prop) (i j : Nat) :
    Prop :=
  FlagSet ((if now then s.current_epoch_participation else s.previous_epoch_participation).getD i 0)
    j ∨
  ∃ a ∈ done, (a.data.target.epoch = epochOf E s.slot ↔ now) ∧ EarnsFlag E f s a i j

/-- What is open after the attestations `done`. -/
noncomputable def openAfter (E : Env) (f : Fork) (s : State) (b : Nat → Nat) (n : Nat)
    (done : List Attestation) (now : Prop) : Nat :=
  ∑ i ∈ Finset.range n, b i * lackWeight (Earned E f s done now i)

theorem open_start (now : Prop) : openAfter E f s b n [] now = openOf b n
    (if now then s.current_epoch_participation else s.previous_epoch_participation) := by
  unfold openAfter openOf
  exact Finset.sum_congr rfl fun i _ => congrArg _ (lack_eq _ _ fun j _ => by simp [Earned])

theorem open_anti {done more : List Attestation} (h : done ⊆ more) (now : Prop) :
    openAfter E f s b n more now ≤ openAfter E f s b n done now :=
  Finset.sum_le_sum fun _ _ => Nat.mul_le_mul_left _ <| lack_anti fun _ hj =>
    hj.imp id fun ⟨a, ha, h'⟩ => ⟨a, h ha, h'⟩

theorem attested_nodup {a : Attestation} {l : List Nat} (h : AttestedBy E f s a l) : l.Nodup := by
  have : l.Pairwise (· < ·) := by
    cases f
    case Electra => exact h.choose_spec.2.2.increasing
    all_goals exact h.signed.increasing
  exact this.imp Nat.ne_of_lt

theorem attested_range {a : Attestation} {l : List Nat} (h : AttestedBy E f s a l) :
    ∀ i ∈ l, i < s.validators.length := by
  cases f
  case Electra => exact h.choose_spec.2.2.in_range
  all_goals exact h.signed.in_range

theorem attested_active (hE : SaneConfig E) (hreg : s.validators.length ≤ 2 ^ 40)
    {a : Attestation} {l : List Nat} (h : AttestedBy E f s a l) :
    ∀ i ∈ l, ∃ v, s.validators[i]? = some v ∧ ActiveAt v (epochOf E a.data.slot) := by
  intro i hi
  have hr : 0 < E.shuffle_round_count := hE.shuffle_round_count
  by_cases he : f = .Electra
  · subst he
    obtain ⟨idxs, h1, h2, -⟩ := h
    obtain ⟨_, x, k, c, -, hc, hk, -⟩ :=
      (C53_attesting_indices_actual E s a idxs h1 i).1 (h2.subset hi)
    exact committee_active hr hreg hc (List.mem_of_getElem? hk)
  · have h : CommitteeVote E s a l := by
      cases f <;> first | exact h | exact absurd rfl he
    obtain ⟨c, hc, -, -, hv⟩ := h.members
    obtain ⟨k, hk, -⟩ := (hv i).1 hi
    exact committee_active hr hreg hc (List.mem_of_getElem? hk)

theorem open_step (hR : Rated E b n s) (hE : SaneConfig E)
    (hreg : s.validators.length ≤ 2 ^ 40) {done : List Attestation} {a : Attestation} {r : Nat}
    (ht : TimelyVote E f s a.data) (h : InclusionReward E f s done a r) :
    448 * r + openAfter E f s b n (done ++ [a]) True + openAfter E f s b n (done ++ [a]) False ≤
      openAfter E f s b n done True + openAfter E f s b n done False := by
  obtain ⟨l, fl, h1, h2, rfl⟩ := h
  have hb : ∀ v ∈ l, baseReward E s v ≤ b v := fun v hv => by
    obtain ⟨w, hw, ha⟩ := attested_active hE hreg h1 v hv
    refine hR.each v w hw ?_
    rw [ht.slot] at ha
    rcases ht.target with h | h <;> rw [h] at ha
    · exact Or.inr ha
    · exact Or.inl ha
  set now : Prop := a.data.target.epoch = epochOf E s.slot with hnow
  have key : (l.map fun v => baseReward E s v * newWeight E f s done a.data fl v).sum +
      openAfter E f s b n (done ++ [a]) now ≤ openAfter E f s b n done now := by
    have k1 := listed_sum_le (g := fun v => baseReward E s v * newWeight E f s done a.data fl v)
      (attested_nodup h1) (n := n)
      fun i hi => Nat.lt_of_lt_of_le (attested_range h1 i hi) hR.registry
    refine (Nat.add_le_add_right k1 _).trans ?_
    unfold openAfter
    rw [← Finset.sum_add_distrib]
    refine Finset.sum_le_sum fun i _ => ?_
    split
    · rename_i hi
      have k2 : lackWeight (Earned E f s (done ++ [a]) now i) +
          newWeight E f s done a.data fl i ≤ lackWeight (Earned E f s done now i) := by
        rw [lack_eq (Earned E f s done now i) (AlreadyEarned E f s done a.data i) fun j _ => by
          unfold Earned AlreadyEarned flagsFor
          simp only [hnow]]
        refine lack_gain (fl := fl) fun j hj => ?_
        rcases hj with hj | hj
        · refine hj.imp (fun h => ?_) fun ⟨a', ha, h'⟩ => ⟨a', List.mem_append_left _ ha, h'⟩
          unfold flagsFor at h
          by_cases hn : a.data.target.epoch = epochOf E s.slot
          · rw [if_pos hn] at h; rw [if_pos (hnow ▸ hn)]; exact h
          · rw [if_neg hn] at h; rw [if_neg (hnow ▸ hn)]; exact h
        · exact Or.inr ⟨a, by simp, Iff.rfl, l, fl, h1, h2, hi, hj⟩
      have k3 := Nat.mul_le_mul_right (newWeight E f s done a.data fl i) (hb i hi)
      have k4 := Nat.mul_le_mul_left (b i) k2
      rw [Nat.mul_add] at k4
      omega
    · rw [Nat.zero_add]
      exact Nat.mul_le_mul_left _ <| lack_anti fun j hj =>
        hj.imp id fun ⟨a', ha, h'⟩ => ⟨a', List.mem_append_left _ ha, h'⟩
  have kd : ∀ x : Nat, 448 * (x / ((64 - 8) * 64 / 8)) ≤ x := fun x => Nat.mul_div_le _ _
  have kt := open_anti (E := E) (f := f) (s := s) (b := b) (n := n)
    (List.subset_append_left done [a])
  have := kd (l.map fun v => baseReward E s v * newWeight E f s done a.data fl v).sum
  have k5 := kt True; have k6 := kt False
  by_cases hn : now
  · have e : now = True := eq_true hn
    rw [e] at key; omega
  · have e : now = False := eq_false hn
    rw [e] at key; omega

theorem open_steps (hR : Rated E b n s) (hE : SaneConfig E)
    (hreg : s.validators.length ≤ 2 ^ 40) {as : List Attestation} {rs : List Nat}
    (ht : ∀ a ∈ as, TimelyVote E f s a.data) (h : InclusionRewards E f s as rs) :
    448 * rs.sum + openAfter E f s b n as True + openAfter E f s b n as False ≤
      openAfter E f s b n [] True + openAfter E f s b n [] False := by
  induction as using List.reverseRecOn generalizing rs with
  | nil =>
    have : rs = [] := List.length_eq_zero_iff.1 h.1
    simp [this]
  | append_singleton as a ih =>
    rcases List.eq_nil_or_concat rs with rfl | ⟨rs, r, rfl⟩
    · have := h.1; simp at this
    · obtain ⟨h1, h2⟩ := h
      simp only [List.concat_eq_append, List.length_append, List.length_singleton,
        Nat.add_right_cancel_iff] at h1 h2
      have k1 := ih (rs := rs) (fun x hx => ht x (List.mem_append_left _ hx)) ⟨h1, fun k x r' hx hr => by
        have hk := (List.getElem?_eq_some_iff.1 hx).1
        have := h2 k x r' (by rw [List.getElem?_append_left hk]; exact hx)
          (by rw [List.getElem?_append_left (h1 ▸ hk)]; exact hr)
        rwa [List.take_append_of_le_length hk.le] at this⟩
      have k2 := h2 as.length a r (by simp) (by rw [← h1]; simp)
      rw [List.take_left'  rfl] at k2
      have k3 := open_step hR hE hreg (ht a (by simp)) k2
      simp only [List.concat_eq_append, List.sum_append, List.sum_singleton]
      omega

theorem open_end (hpar : s.current_epoch_participation.length = s.validators.length)
    (hpar' : s.previous_epoch_participation.length = s.validators.length)
    {as : List Attestation} {now : Prop} {l : List UInt8}
    (h : FlagsEarned (fun i j => ∃ a ∈ as, (a.data.target.epoch = epochOf E s.slot ↔ now) ∧
        EarnsFlag E f s a i j)
      (if now then s.current_epoch_participation else s.previous_epoch_participation) l) :
    openOf b n l ≤ openAfter E f s b n as now := by
  refine Finset.sum_le_sum fun i _ => Nat.mul_le_mul_left _ ?_
  have hlen : (if now then s.current_epoch_participation
      else s.previous_epoch_participation).length = s.validators.length := by
    split <;> assumption
  by_cases hi : i < s.validators.length
  · obtain ⟨x, hx⟩ : ∃ x, (if now then s.current_epoch_participation
        else s.previous_epoch_participation)[i]? = some x :=
      ⟨_, List.getElem?_eq_getElem (hlen.symm ▸ hi)⟩
    obtain ⟨y, hy, hj⟩ := h i x hx
    refine le_of_eq (lack_eq _ _ fun j hlt => ?_)
    unfold Earned
    rw [List.getD_eq_getElem?_getD, hy, List.getD_eq_getElem?_getD, hx]
    exact hj j hlt
  · refine (lack_le _).trans (le_of_eq (lack_none _ fun j _ => ?_).symm)
    rintro (h' | ⟨a, -, -, m, fl, h1, -, h3, -⟩)
    · rw [List.getD_eq_getElem?_getD, List.getElem?_eq_none (by omega)] at h'
      simp [FlagSet] at h'
    · exact hi (attested_range h1 i h3)

/-- What a block pays its proposer for attestations comes from what was open. -/
theorem block_open (hE : SaneConfig E) (hmax : 0 < E.max_deposits)
    (hV : E.min_seed_lookahead + 3 < E.epochs_per_historical_vector)
    (hslot : s.slot < 2 ^ 63) (hreg : s.validators.length ≤ 2 ^ 40)
    (hf : f ≠ .Phase0) (hpar : Parallel f s) (hR : Rated E b n s) {rs : List Nat}
    (hr : InclusionRewards E f s blk.body.attestations rs)
    (h : process_block E f blk s = .ok () s') :
    448 * rs.sum + openOf b n s'.current_epoch_participation +
        openOf b n s'.previous_epoch_participation ≤
      openOf b n s.current_epoch_participation + openOf b n s.previous_epoch_participation := by
  obtain ⟨h1, h2, h3⟩ := C86_attestations hE hmax hV hslot hreg hf hpar h
  have k1 := open_steps hR hE hreg (fun a ha => (h1 a ha).1) hr
  have hl := hpar.2 hf
  have k2 := open_end (b := b) (n := n) (f := f) (as := blk.body.attestations) (now := True) hl.2.1 hl.1
    (l := s'.current_epoch_participation) (by simpa using h2)
  have k3 := open_end (b := b) (n := n) (f := f) (as := blk.body.attestations) (now := False) hl.2.1 hl.1
    (l := s'.previous_epoch_participation) (by simpa using h3)
  rw [open_start, open_start, if_pos trivial, if_neg id] at k1
  omega

/-- What a block pays for the sync committee. -/
theorem sync_cost {c : Nat} (hc : c ≤ E.sync_committee_size) :
    448 * E.slots_per_epoch * (c * (syncReward E s + syncProposerReward E s)) ≤
      16 * totalBase E s := by
  have k1 : syncReward E s * E.sync_committee_size * E.slots_per_epoch * 64 ≤ totalBase E s * 2 := by
    unfold syncReward
    change totalBase E s * 2 / 64 / E.slots_per_epoch / E.sync_committee_size *
      E.sync_committee_size * E.slots_per_epoch * 64 ≤ _
    have a1 := Nat.div_mul_le_self (totalBase E s * 2 / 64 / E.slots_per_epoch) E.sync_committee_size
    have a2 := Nat.div_mul_le_self (totalBase E s * 2 / 64) E.slots_per_epoch
    have a3 := Nat.div_mul_le_self (totalBase E s * 2) 64
    exact ((Nat.mul_le_mul_right 64 ((Nat.mul_le_mul_right _ a1).trans a2))).trans a3
  have k2 : 7 * (syncReward E s + syncProposerReward E s) ≤ 8 * syncReward E s := by
    unfold syncProposerReward; omega
  calc 448 * E.slots_per_epoch * (c * (syncReward E s + syncProposerReward E s))
      = 64 * E.slots_per_epoch * c * (7 * (syncReward E s + syncProposerReward E s)) := by ring
    _ ≤ 64 * E.slots_per_epoch * E.sync_committee_size * (8 * syncReward E s) := by gcongr
    _ = 8 * (syncReward E s * E.sync_committee_size * E.slots_per_epoch * 64) := by ring
    _ ≤ 8 * (totalBase E s * 2) := Nat.mul_le_mul_left _ k1
    _ = 16 * totalBase E s := by ring

end Blocks

/-! ## The end of an epoch -/

section Ends

variable {E : Env} {f : Fork} {s s' : State} {b : Nat → Nat} {n : Nat}

theorem settled_le {i x : Nat} :
    Spec.settled E f s i x ≤ x + (flagReward E s 0 i + flagReward E s 1 i + flagReward E s 2 i) := by
  unfold Spec.settled; omega

theorem flags_worth (hR : Rated E b n s) (hT : Turnout E s) (i : Nat) :
    64 * (flagReward E s 0 i + flagReward E s 1 i + flagReward E s 2 i) ≤ 54 * b i := by
  by_cases h : ∃ v, s.validators[i]? = some v ∧ ActiveAt v (previousEpoch E s)
  · obtain ⟨v, hv, ha⟩ := h
    have k := hR.each i v hv (Or.inl ha)
    have h0 := flag_reward_le (i := i) (hT 0 (by decide))
    have h1 := flag_reward_le (i := i) (hT 1 (by decide))
    have h2 := flag_reward_le (i := i) (hT 2 (by decide))
    simp only [flagWeight] at h0 h1 h2
    norm_num at h0 h1 h2
    omega
  · have : ∀ j, flagReward E s j i = 0 := fun j => by
      unfold flagReward
      rw [if_neg]
      rintro ⟨-, ⟨v, hv, -, ha, -⟩, -⟩
      exact h ⟨v, hv, ha⟩
    simp [this]

theorem epoch_supply (hf : f ≠ .Phase0) (hp : Proper E s) (hR : Rated E b n s) (hT : Turnout E s)
    (h : process_epoch E f s = .ok () s') :
    64 * supply s' ≤ 64 * supply s + 54 * together b n := by
  obtain ⟨e⟩ := epoch_steps h
  have hs2 : e.s₂ = scored s s' := e.scored_eq
  have hlen : s.balances.length = s.validators.length := hp.accounts
  -- the rewards
  have k3 : 64 * e.s₃.balances.sum ≤ 64 * s.balances.sum + 54 * together b n ∧
      e.s₃.balances.length = s.balances.length := by
    have h3 := e.rewards
    rw [hs2] at h3
    rcases altair_rewards_ok hf h3 with ⟨-, h3⟩ | ⟨-, bs, h3, h4, h5⟩
    · rw [h3]; exact ⟨Nat.le_add_right _ _, rfl⟩
    · rw [h3]
      refine ⟨?_, h4⟩
      have hR' : Rated E b n (scored s s') := ⟨hR.registry, hR.each, hR.all⟩
      have hT' : Turnout E (scored s s') := hT
      have k := sum_le_allow (l := bs) (m := s.balances)
        (g := fun i => flagReward E (scored s s') 0 i + flagReward E (scored s s') 1 i +
          flagReward E (scored s s') 2 i) h4 fun i x y hx hy => by
          have hi : i < s.validators.length := hlen ▸ (List.getElem?_eq_some_iff.1 hy).1
          obtain ⟨z, hz, hs⟩ := (h5 i).1 hi
          have : (scored s s').balances = s.balances := rfl
          rw [this, hy] at hz; cases hz
          rw [hx] at hs; cases hs
          exact settled_le
      have k2 : 64 * ∑ i ∈ Finset.range s.balances.length,
          (flagReward E (scored s s') 0 i + flagReward E (scored s s') 1 i +
            flagReward E (scored s s') 2 i) ≤ 54 * together b n := by
        rw [together_eq, Finset.mul_sum, Finset.mul_sum]
        refine (Finset.sum_le_sum fun i _ => flags_worth hR' hT' i).trans ?_
        exact Finset.sum_le_sum_of_subset
          (Finset.range_subset_range.2 (hlen ▸ hR.registry))
      change 64 * bs.sum ≤ _
      omega
  have k4 : e.s₄.balances = e.s₃.balances := e.m4 .balances (by decide)
  have k5 : e.s₅.balances.sum ≤ e.s₄.balances.sum ∧
      e.s₅.balances.length = e.s₄.balances.length := by
    obtain ⟨bs, h1, h2, h3⟩ := process_slashings_ok e.slashings
    rw [h1]
    refine ⟨?_, h2⟩
    have := sum_le_allow (l := bs) (m := e.s₄.balances) (g := fun _ => 0) h2 fun i x y hx hy => by
      have := h3 i
      rw [hx, hy] at this
      split at this
      · split at this
        · simp only [Option.map_some, Option.some.injEq] at this; omega
        · cases this; exact Nat.le_refl _
      · cases this; exact Nat.le_refl _
    simpa using this
  have k6 : e.s₆.balances = e.s₅.balances := e.m6 .balances (by decide)
  have q6 : e.s₆.pending_balance_deposits = s.pending_balance_deposits :=
    e.to6 .pending_balance_deposits (by decide)
  have k7 : supply e.s₇ = supply e.s₆ := by
    have h7 := e.deposits
    split at h7
    · exact C51_conserved E _ _ h7
    · rw [h7]
  have k8 : supply e.s₈ = supply e.s₇ := by
    have h8 := e.consolidations
    split at h8
    · rename_i hf'
      have h7 := e.deposits
      rw [if_pos hf'] at h7
      obtain ⟨k, hk, -⟩ := pending_deposits_ok h7
      refine C52_conserved E hp.config _ _ ?_ h8
      obtain ⟨A, hA, -⟩ := e.booked hp.increment (e.finalized_le hp)
      have l6 : e.s₆.balances.length = e.s₆.validators.length := by
        rw [hA.accounts, hA.validators, hlen]
      have v7 : e.s₇.validators = e.s₆.validators := e.m7 .validators (by decide)
      rw [v7, ← l6]
      have hb := hk.balances
      apply Nat.le_antisymm
      · rw [← List.getElem?_eq_none_iff, hb, List.getElem?_eq_none (Nat.le_refl _)]; rfl
      · by_contra hc
        have := hb e.s₇.balances.length
        rw [List.getElem?_eq_none (Nat.le_refl _), List.getElem?_eq_getElem (by omega)] at this
        cases this
    · rw [h8]
  have k9 : supply s' = supply e.s₈ := by
    unfold supply
    rw [show s'.balances = e.s₈.balances from e.from8 .balances (by decide),
      show s'.pending_balance_deposits = e.s₈.pending_balance_deposits from
        e.from8 .pending_balance_deposits (by decide)]
  have k10 : supply e.s₆ = e.s₅.balances.sum + depositSum s.pending_balance_deposits := by
    unfold supply; rw [k6, q6]
  have k11 : supply s = s.balances.sum + depositSum s.pending_balance_deposits := rfl
  rw [k4] at k5
  omega

theorem epoch_open (hf : f ≠ .Phase0) (h : process_epoch E f s = .ok () s') :
    openOf b n s'.current_epoch_participation + openOf b n s'.previous_epoch_participation ≤
      openOf b n s.current_epoch_participation + 54 * together b n := by
  obtain ⟨h1, -⟩ := (epoch_rotates h).2 hf
  rw [h1]
  have := open_le b n s'.current_epoch_participation
  omega

end Ends

/-! ## The stretch -/

section Run

variable {E : Env} {f : Fork} {b : Nat → Nat} {n : Nat} {s t u : State}

/-- All the money there is, with what is open to be earned by votes, and, as long as the slot has no
block, by a sync aggregate. -/
noncomputable def pot (E : Env) (b : Nat → Nat) (n : Nat) (t : State) : Nat :=
  448 * E.slots_per_epoch * supply t +
  E.slots_per_epoch *
    (openOf b n t.current_epoch_participation + openOf b n t.previous_epoch_participation) +
  if t.latest_block_header.slot < t.slot then 16 * together b n else 0

theorem pot_block (hE : SaneConfig E) (hmax : 0 < E.max_deposits)
    (hV : E.min_seed_lookahead + 3 < E.epochs_per_historical_vector)
    (hslot : t.slot < 2 ^ 63) (hreg : t.validators.length ≤ 2 ^ 40)
    (hf : f ≠ .Phase0) (hpar : Parallel f t) (hR : Rated E b n t) {blk : BeaconBlock}
    (hbits : blk.body.sync_aggregate.sync_committee_bits.length ≤ E.sync_committee_size)
    (h : process_block E f blk t = .ok () u) :
    pot E b n u ≤ pot E b n t + 448 * E.slots_per_epoch * brought E f t blk := by
  obtain ⟨hh, hl⟩ := C86_header hmax h
  obtain ⟨rs, h1, h2⟩ := C88_no_minting hE hmax hV hslot hreg hpar h
  have k1 := block_open hE hmax hV hslot hreg hf hpar hR (h1 hf) h
  have k2 := sync_cost (s := t) (c := blk.body.sync_aggregate.sync_committee_bits.count true)
    (List.count_le_length.trans hbits)
  rw [if_neg hf] at h2
  have hs : u.slot = t.slot := block_mod.ok h .slot (by decide)
  unfold pot
  have hn : t.latest_block_header.slot < t.slot := hh.slot ▸ hh.newer
  rw [if_pos hn, if_neg (by rw [hl, hs, ← hh.slot]; exact Nat.lt_irrefl _)]
  have h2' : supply u ≤ supply t + brought E f t blk + (rs.sum +
      blk.body.sync_aggregate.sync_committee_bits.count true *
        (syncReward E t + syncProposerReward E t)) := by
    unfold supply brought depositSum; omega
  have k3 := Nat.mul_le_mul_left (448 * E.slots_per_epoch) h2'
  have k4 := Nat.mul_le_mul_left E.slots_per_epoch k1
  have k5 := hR.all
  simp only [Nat.mul_add] at k3 k4 ⊢
  have k6 : E.slots_per_epoch * (448 * rs.sum) = 448 * E.slots_per_epoch * rs.sum := by ring
  simp only [Nat.mul_add] at k2
  omega

theorem pot_slot (hE : SaneConfig E) (hf : f ≠ .Phase0) (hp : Proper E t) (hR : Rated E b n t)
    (hT : (t.slot + 1) % E.slots_per_epoch = 0 → Turnout E t)
    (h : process_slots E f (t.slot + 1) t = .ok () u) :
    u.slot = t.slot + 1 ∧
    pot E b n u ≤ pot E b n t + 16 * together b n +
      432 * together b n * E.slots_per_epoch * (epochOf E u.slot - epochOf E t.slot) := by
  obtain ⟨t₁, t₂, h1, -, h0, h2, rfl⟩ := slot_step_eq_ok.1 (process_slots_one h)
  refine ⟨rfl, ?_⟩
  have c1 := slot_mod.ok h1
  have e1 : supply t₁ = supply t := by
    unfold supply
    rw [show t₁.balances = t.balances from c1 .balances (by decide),
      show t₁.pending_balance_deposits = t.pending_balance_deposits from
        c1 .pending_balance_deposits (by decide)]
  have e2 : t₁.current_epoch_participation = t.current_epoch_participation :=
    c1 .current_epoch_participation (by decide)
  have e3 : t₁.previous_epoch_participation = t.previous_epoch_participation :=
    c1 .previous_epoch_participation (by decide)
  have hif : ∀ (c : Prop) [Decidable c] (x y : Nat), (if c then x else 0) ≤ y + x :=
    fun c _ x y => by
    split <;> omega
  rcases h2 with ⟨h2, h3⟩ | ⟨h2, rfl⟩
  · have hs : (epochOf E (t.slot + 1) - epochOf E t.slot) = 1 := by
      unfold epochOf
      obtain ⟨k, hk⟩ := Nat.dvd_of_mod_eq_zero h2
      have hpos := hE.slots_per_epoch.1
      rw [hk, Nat.mul_div_cancel_left _ hpos]
      have : t.slot / E.slots_per_epoch = k - 1 := by
        have hk1 : 0 < k := by
          rcases Nat.eq_zero_or_pos k with rfl | h
          · simp at hk
          · exact h
        obtain ⟨m, rfl⟩ : ∃ m, k = m + 1 := ⟨k - 1, by omega⟩
        rw [Nat.mul_add, Nat.mul_one] at hk
        rw [Nat.add_sub_cancel]
        exact Nat.div_eq_of_lt_le (by rw [Nat.mul_comm]; omega)
          (by rw [Nat.mul_comm, Nat.mul_add]; omega)
      rw [this]
      have : k ≠ 0 := by rintro rfl; simp at hk
      omega
    have hv : t₁.validators = t.validators := c1 .validators (by decide)
    have hsl : t₁.slot = t.slot := c1 .slot (by decide)
    have ha : activeBalance E t₁ = activeBalance E t := by
      unfold activeBalance totalEffective activeIndices effectiveBalance; rw [hv, hsl]
    have hb : ∀ i, baseReward E t₁ i = baseReward E t i := fun i => by
      unfold baseReward totalEffective activeIndices effectiveBalance; rw [hv, hsl]
    have hR1 : Rated E b n t₁ := by
      refine ⟨hv ▸ hR.registry, fun i v h h' => ?_, ?_⟩
      · rw [hb]; exact hR.each i v (hv ▸ h) (by unfold previousEpoch at h' ⊢; rwa [hsl] at h')
      · unfold totalBase; rw [ha]; exact hR.all
    have hT1 : Turnout E t₁ := fun j hj => by
      have := hT h2 j hj
      rw [ha]
      refine le_of_eq_of_le ?_ this
      have hh : ∀ i, HasFlag E t₁ j i ↔ HasFlag E t j i := fun i => by
        unfold HasFlag previousEpoch; rw [hv, hsl, e3]
      unfold flagBalance totalEffective effectiveBalance
      rw [hv, List.filter_congr fun i _ => decide_eq_decide.2 (hh i)]
    have hp1 : Proper E t₁ := ⟨hp.config, hp.balances, hp.increment,
      by rw [show t₁.justification_bits = t.justification_bits from
        c1 .justification_bits (by decide)]; exact hp.bits,
      by rw [show t₁.previous_justified_checkpoint = t.previous_justified_checkpoint from
        c1 .previous_justified_checkpoint (by decide), hsl]; exact hp.previous,
      by rw [show t₁.current_justified_checkpoint = t.current_justified_checkpoint from
        c1 .current_justified_checkpoint (by decide), hsl]; exact hp.current,
      by rw [show t₁.finalized_checkpoint = t.finalized_checkpoint from
        c1 .finalized_checkpoint (by decide), hsl]; exact hp.finalized,
      by rw [show t₁.balances = t.balances from c1 .balances (by decide), hv]; exact hp.accounts⟩
    have k1 := epoch_supply hf hp1 hR1 hT1 h3
    have k2 := epoch_open (b := b) (n := n) hf h3
    rw [e1] at k1
    rw [e2] at k2
    unfold pot
    dsimp only
    rw [hs, Nat.mul_one]
    have k3 : supply { t₂ with slot := t.slot + 1 } = supply t₂ := rfl
    rw [k3]
    have k4 := Nat.mul_le_mul_left (7 * E.slots_per_epoch) k1
    have k5 := Nat.mul_le_mul_left E.slots_per_epoch k2
    have k6 := hif (t₂.latest_block_header.slot < t.slot + 1) (16 * together b n)
      (if t.latest_block_header.slot < t.slot then 16 * together b n else 0)
    have r1 : 7 * E.slots_per_epoch * (64 * supply t₂) = 448 * E.slots_per_epoch * supply t₂ := by
      ring
    have r2 : 7 * E.slots_per_epoch * (64 * supply t + 54 * together b n) =
        448 * E.slots_per_epoch * supply t + 378 * together b n * E.slots_per_epoch := by ring
    have r3 : E.slots_per_epoch * (openOf b n t.current_epoch_participation + 54 * together b n) =
        E.slots_per_epoch * openOf b n t.current_epoch_participation +
          54 * together b n * E.slots_per_epoch := by ring
    have r4 : 432 * together b n * E.slots_per_epoch = 378 * together b n * E.slots_per_epoch +
        54 * together b n * E.slots_per_epoch := by ring
    rw [r1, r2] at k4
    rw [r3] at k5
    rw [r4, Nat.mul_add E.slots_per_epoch (openOf b n t.current_epoch_participation)]
    omega
  · unfold pot
    dsimp only
    have k3 : supply { t₂ with slot := t.slot + 1 } = supply t₂ := rfl
    rw [k3, e1, e2, e3]
    have k6 := hif (t₂.latest_block_header.slot < t.slot + 1) (16 * together b n)
      (if t.latest_block_header.slot < t.slot then 16 * together b n else 0)
    omega

end Run

end Verif
