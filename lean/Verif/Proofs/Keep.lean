import Verif.Proofs.KeepBook
import Verif.Proofs.Guilt
import Verif.Proofs.Liveness
import Verif.Props.Ends
import Verif.Props.Guilt
import Verif.Props.Rewards
import Verif.Props.Upgrade

/-! # Lemmas for C98: what belongs to one validator, over time -/

namespace Verif.Props

open Spec

variable {E : Env} {f g : Fork} {s s' t u : State} {i : Nat}

theorem depositedTo_mem {l : List PendingBalanceDeposit} {d : PendingBalanceDeposit} (h : d ∈ l) :
    d.amount ≤ depositedTo l d.index := by
  obtain ⟨a, b, rfl⟩ := List.append_of_mem h
  rw [show a ++ d :: b = a ++ ([d] ++ b) from rfl, depositedTo_append, depositedTo_append]
  have : depositedTo [d] d.index = d.amount := by simp [depositedTo]
  omega

/-! ## The end of an epoch -/

theorem settled_keeps {b : Nat} {v : Validator} (hv : s.validators[i]? = some v)
    (hs : v.slashed = false) (ha : HasAttested E s i) : b ≤ Spec.settled E f s i b := by
  by_cases hc : Counts E s i
  · have hact : ActiveAt v (previousEpoch E s) := by
      obtain ⟨w, hw, h1 | h1⟩ := hc
      · rw [hv] at hw; cases hw; exact h1
      · rw [hv] at hw; cases hw; rw [hs] at h1; cases h1.1
    obtain ⟨x, hx, h0, h1⟩ := ha v hv hact
    have hf0 : HasFlag E s 0 i := ⟨v, hv, hs, hact, x, hx, h0⟩
    have hf1 : HasFlag E s 1 i := ⟨v, hv, hs, hact, x, hx, h1⟩
    have z0 : flagPenalty E s 0 i = 0 := by
      unfold flagPenalty; rw [if_neg (fun h => h.2.1 hf0)]
    have z1 : flagPenalty E s 1 i = 0 := by
      unfold flagPenalty; rw [if_neg (fun h => h.2.1 hf1)]
    have z2 : flagPenalty E s 2 i = 0 := by
      unfold flagPenalty; rw [if_neg (fun h => h.2.2 rfl)]
    have z3 : scorePenalty E f s i = 0 := by
      unfold scorePenalty; rw [if_neg (fun h => h.2 hf1)]
    unfold Spec.settled; rw [z0, z1, z2, z3]; omega
  · have z : ∀ j, flagPenalty E s j i = 0 := fun j => by
      unfold flagPenalty; rw [if_neg (fun h => hc h.1)]
    have z3 : scorePenalty E f s i = 0 := by
      unfold scorePenalty; rw [if_neg (fun h => hc h.1)]
    unfold Spec.settled; rw [z, z, z, z3]; omega

/-- In phase0 the rewards of one who voted make up for the penalties. -/
theorem voted_keeps {v : Validator} {first : Nat → PendingAttestation}
    (hv : s.validators[i]? = some v) (hs : v.slashed = false)
    (ha : HasVoted E s s.finalized_checkpoint i)
    (hfirst : ∀ j, Did E s .source j → IncludedFirst E s j (first j)) :
    allPenalties E s i ≤ allRewards E s first i := by
  by_cases hc : Counts E s i
  · have hact : ActiveAt v (previousEpoch E s) := by
      obtain ⟨w, hw, h1 | h1⟩ := hc
      · rw [hv] at hw; cases hw; exact h1
      · rw [hv] at hw; cases hw; rw [hs] at h1; cases h1.1
    obtain ⟨⟨a, ha, hatt, hful⟩, hfast⟩ := ha v hv hact
    have did : ∀ d, Did E s d i := fun d => ⟨⟨v, hv, hs⟩, a, ha, by
      cases d
      · trivial
      · exact hful.1
      · exact hful, hatt⟩
    have z : ∀ d, dutyPenalty E s d i = 0 := fun d => by
      unfold dutyPenalty; rw [if_neg (fun h => h.2 (did d))]
    unfold allPenalties allRewards
    rw [z, z, z]
    by_cases hl : Leaking E s
    · obtain ⟨a', h1, h2⟩ := hfast hl
      have e := includedFirst_unique (hfirst i (did .source)) h1
      have r : ∀ d, dutyReward E s d i = quarterReward E s i := fun d => by
        unfold dutyReward; rw [if_pos ⟨hc, did d⟩, if_pos hl]
      have r4 : delayReward E s first i = quarterReward E s i - proposerPart E s i := by
        unfold delayReward; rw [if_pos (did .source), e, h2, Nat.div_one]
      have q5 := proposer_part_le (E := E) (s := s) (i := i)
      have o : overduePenalty E s i = 4 * quarterReward E s i - proposerPart E s i := by
        unfold overduePenalty; rw [if_pos ⟨hl, hc⟩, if_pos (did .target)]; rfl
      rw [r, r, r, r4, o]
      omega
    · have o : overduePenalty E s i = 0 := by
        unfold overduePenalty; rw [if_neg (fun h => hl h.1)]
      rw [o]; omega
  · have z : ∀ d, dutyPenalty E s d i = 0 := fun d => by
      unfold dutyPenalty; rw [if_neg (fun h => hc h.1)]
    have o : overduePenalty E s i = 0 := by
      unfold overduePenalty; rw [if_neg (fun h => hc h.2)]
    unfold allPenalties
    rw [z, z, z, o]; omega

theorem credited_keeps {k : Nat} (h : DepositsCredited E s k s')
    (hi : i < s.balances.length) : wealth .Electra s i ≤ wealth .Electra s' i := by
  unfold wealth
  simp only [if_true]
  obtain ⟨b, hb⟩ : ∃ b, s.balances[i]? = some b := ⟨_, List.getElem?_eq_getElem hi⟩
  rw [List.getD_eq_getElem?_getD, List.getD_eq_getElem?_getD, h.balances, hb, h.queue]
  have := depositedTo_append (s.pending_balance_deposits.take k)
    (s.pending_balance_deposits.drop k) i
  rw [List.take_append_drop] at this
  simp only [Option.map_some, Option.getD_some]
  omega

theorem consolidation_keeps {c : PendingConsolidation} {x m : Nat}
    (h : Consolidated E s c x m t) (hi : c.source_index ≠ i) :
    wealth .Electra s i ≤ wealth .Electra t i := by
  unfold wealth
  simp only [if_true]
  rw [List.getD_eq_getElem?_getD, List.getD_eq_getElem?_getD, h.balances, h.deposits,
    depositedTo_append]
  obtain ⟨v, b0, -, hb0, hx, -⟩ := h.target
  cases hb : s.balances[i]? with
  | none => simp only [Option.map_none, Option.getD_none]; omega
  | some b =>
    simp only [Option.map_some, Option.getD_some]
    have hi' : ¬ i = c.source_index := fun h => hi h.symm
    by_cases ht : i = c.target_index
    · subst ht
      rw [if_pos rfl, if_pos rfl, if_neg hi']
      by_cases h0 : x = 0
      · omega
      · rw [if_neg h0]
        have : depositedTo [(⟨c.target_index, x⟩ : PendingBalanceDeposit)] c.target_index = x := by
          simp [depositedTo]
        omega
    · rw [if_neg ht, if_neg hi', if_neg ht]; omega

theorem consolidations_keep {l : List PendingConsolidation} (h : ConsolidatedAll E s l t)
    (hi : ∀ c ∈ l, c.source_index ≠ i) : wealth .Electra s i ≤ wealth .Electra t i := by
  induction h with
  | done => exact Nat.le_refl _
  | void _ _ ih => exact ih fun c hc => hi c (List.mem_cons_of_mem _ hc)
  | step h _ ih =>
    exact Nat.le_trans (consolidation_keeps h (hi _ (List.mem_cons_self ..)))
      (ih fun c hc => hi c (List.mem_cons_of_mem _ hc))

theorem epoch_keeps (hp : Proper E s) (h : process_epoch E f s = .ok () s')
    {v : Validator} (hv : s.validators[i]? = some v) (hs : v.slashed = false)
    (ha : 0 < epochOf E s.slot → DidDuty E f s s'.finalized_checkpoint i)
    (hst : f = .Electra → Stays s i) : wealth f s i ≤ wealth f s' i := by
  obtain ⟨A, t, u, hb, -, hc, -, h5⟩ := C87_settled hp h
  obtain ⟨w, hw, hq⟩ := hb.entries i v hv
  obtain ⟨b, hbal⟩ : ∃ b, s.balances[i]? = some b :=
    ⟨_, List.getElem?_eq_getElem (by
      rw [hp.accounts]; exact (List.getElem?_eq_some_iff.1 hv).1)⟩
  obtain ⟨r, hr, ht⟩ := hb.balances i w b hw hbal
  have hpun : punished E f s w r = r := by
    unfold punished
    rw [if_neg]
    intro hd
    have := hd.1
    rw [hq.slashed, hs] at this
    cases this
  rw [hpun] at ht
  have hbr : b ≤ r := by
    unfold Rewarded at hr
    split at hr
    · omega
    · rename_i h0
      have hd := ha (Nat.pos_of_ne_zero h0)
      unfold DidDuty at hd
      split at hr
      · rename_i hf
        rw [if_pos hf] at hd
        obtain ⟨first, h1, h2⟩ := hr
        have := voted_keeps (s := Spec.scored s s') (v := v) hv hs hd h1
        omega
      · rename_i hf
        rw [if_neg hf] at hd
        rw [hr]
        exact settled_keeps (s := Spec.scored s s') (v := v) hv hs hd
  have hpend : t.pending_balance_deposits = s.pending_balance_deposits := by rw [hb.rest]; rfl
  have hcons : t.pending_consolidations = s.pending_consolidations := by rw [hb.rest]; rfl
  have e1 : wealth f s i ≤ wealth f t i := by
    unfold wealth
    rw [List.getD_eq_getElem?_getD, List.getD_eq_getElem?_getD, hbal, ht, hpend]
    exact Nat.add_le_add_right hbr _
  have e3 : wealth f s' i = wealth f u i := by
    unfold wealth
    rw [h5]
  rw [e3]
  refine Nat.le_trans e1 ?_
  split at hc
  · rename_i he
    subst he
    obtain ⟨k, d, m, k1, -, k2, -, -⟩ := hc
    have hi : i < t.balances.length := by
      rw [hb.accounts]; exact (List.getElem?_eq_some_iff.1 hbal).1
    refine Nat.le_trans (credited_keeps k1 hi) ?_
    have hd : d.pending_consolidations = s.pending_consolidations := by rw [k1.rest]; exact hcons
    have := consolidations_keep (i := i) k2 fun c hc => hst rfl c (by
      rw [← hd]; exact List.mem_of_mem_take hc)
    exact this
  · rw [hc]

/-! ## One step -/

theorem slot_keeps (hE : SaneConfig E) (hB : SaneBalances E)
    (hI : E.effective_balance_increment < 2 ^ 64) (hr : Reachable E f s)
    (h : process_slots E f (s.slot + 1) s = .ok () s') {v : Validator}
    (hv : s.validators[i]? = some v) (hs : v.slashed = false)
    (ha : 0 < epochOf E s.slot → epochOf E s.slot < epochOf E s'.slot →
      ∀ e, process_slot E f s = .ok () e → DidDuty E f e s'.finalized_checkpoint i)
    (hst : f = .Electra → Stays s i) : wealth f s i ≤ wealth f s' i := by
  have hsl := slot_step_slot (process_slots_one h)
  obtain ⟨s₁, s₂, h1, -, -, h4, rfl⟩ := slot_step_eq_ok.1 (process_slots_one h)
  have hr1 : Reachable E f s₁ := by
    have := Reachable.call hr .process_slot
    unfold finalState at this
    rwa [h1] at this
  obtain ⟨-, -, -, hs1⟩ := process_slot_eq_ok.1 h1
  have e1 : wealth f s₁ i = wealth f s i := by rw [hs1]; rfl
  have hv1 : s₁.validators[i]? = some v := by rw [hs1]; exact hv
  rcases h4 with ⟨h4, h5⟩ | ⟨-, rfl⟩
  · have hep : epochOf E s.slot < epochOf E (s.slot + 1) := by
      rcases epoch_next (E := E) (n := s.slot) with ⟨-, h6⟩ | ⟨h6, -⟩
      · omega
      · exact absurd h4 h6
    have := epoch_keeps (C87_proper hE hB hI hr1) h5 hv1 hs (fun h0 => ?_) (fun he => ?_)
      (i := i)
    · rw [e1] at this; exact this
    · have hs0 : s₁.slot = s.slot := by rw [hs1]
      rw [hs0] at h0
      exact ha h0 hep s₁ h1
    · rw [hs1]; exact hst he
  · exact Nat.le_of_eq e1.symm

theorem block_keeps {b : BeaconBlock} (hE : SaneConfig E) (hmax : 0 < E.max_deposits)
    (hV : E.min_seed_lookahead + 3 < E.epochs_per_historical_vector)
    (hslot : s.slot < 2 ^ 63) (hreg : s.validators.length ≤ 2 ^ 40) (hr : Reachable E f s)
    (h : process_block E f b s = .ok () s') {w : Validator}
    {v : Validator} (hv : s.validators[i]? = some v)
    (hw : s'.validators[i]? = some w) (hs : w.slashed = false)
    (hsy : f ≠ .Phase0 → Synced s b i) :
    wealth f s i ≤ wealth f s' i + paidOut f b i := by
  have hpar := (reachable_inv hE hr).parallel
  obtain ⟨rewards, seats, -, h2, h3⟩ := C88_ledger hE hmax hV hslot hreg hpar h
  have hpar' : Parallel f s' := (block_len.ok h).parallel hpar
  rw [← held_book hpar.1, ← held_book hpar'.1, h3]
  refine held_ledger ?_ ?_
  · intro ho
    obtain ⟨-, -, h4⟩ := C88_slashed hE hmax hslot h
    obtain ⟨w', hw', h5⟩ := h4 i v hv
    rw [hw] at hw'; cases hw'
    have := h5.2 (Or.inr ho)
    rw [hs] at this; cases this
  · intro hf y hy hyi
    obtain ⟨n, hn⟩ := List.getElem?_of_mem hy
    rw [List.getElem?_zip_eq_some] at hn
    obtain ⟨key, hk, hkey⟩ := (C89_seats hr hf h seats (h2 hf) n i).1 (by rw [hn.1, hyi])
    have := hsy hf n key hk hkey
    cases hy2 : y.2 with
    | true => rfl
    | false => rw [hn.2, hy2] at this; exact absurd rfl this

theorem upgrade_keeps (ho : g.ord = f.ord + 1)
    (hl : s.balances.length = s.validators.length) (h : upgrade_to E g s = .ok s') :
    wealth f s i ≤ wealth g s' i := by
  by_cases hg : g = .Electra
  · subst hg
    have hfe : f ≠ .Electra := by rintro rfl; simp [Fork.ord] at ho
    have hi := C34_electra E s s' h
    unfold wealth
    rw [if_neg hfe, if_pos rfl, List.getD_eq_getElem?_getD, List.getD_eq_getElem?_getD]
    cases hb : s.balances[i]? with
    | none => simp
    | some b =>
      obtain ⟨v, hv⟩ : ∃ v, s.validators[i]? = some v :=
        ⟨_, List.getElem?_eq_getElem (by
          have := (List.getElem?_eq_some_iff.1 hb).1; omega)⟩
      rw [hi.balances i v b ⟨hv, hb⟩]
      simp only [Option.getD_some]
      obtain ⟨q₁, q₂, hq, -, m1, -, m2⟩ := hi.queue.split
      have key : excess E v b ≤ depositedTo s'.pending_balance_deposits i := by
        unfold excess
        split
        · rename_i hn
          exact depositedTo_mem (d := ⟨i, b⟩) (by
            rw [hq]; exact List.mem_append_left _ ((m1 _).2 ⟨v, ⟨hv, hb⟩, hn⟩))
        · rename_i hn
          split
          · rename_i hc
            by_cases hlt : E.min_activation_balance < b
            · exact depositedTo_mem (d := ⟨i, b - E.min_activation_balance⟩) (by
                rw [hq]
                exact List.mem_append_right _ ((m2 _).2 ⟨v, b, ⟨hv, hb⟩, hn, hc, hlt, rfl⟩))
            · omega
          · omega
      omega
  · have hfe : f ≠ .Electra := by
      rintro rfl
      cases g <;> simp [Fork.ord] at ho
    have hb : s'.balances = s.balances := by
      have hc := (C34_carried E g s s' h).1 .balances (by
        cases g <;> first | cases h | decide | exact absurd rfl hg)
      exact hc
    unfold wealth
    rw [if_neg hfe, if_neg hg, hb]

/-! ## A stretch of a chain -/

theorem dutiful_future {x : Nat} (h : Dutiful E i f s g t x) : ChainFuture E f s g t := by
  induction h with
  | start => exact .start
  | @slot g t u x _ h _ _ ih =>
    have := ChainFuture.call ih (.process_slots (t.slot + 1))
    unfold finalState at this
    rwa [h] at this
  | @block g t u x b _ h _ ih =>
    have := ChainFuture.call ih (.process_block b)
    unfold finalState at this
    rwa [h] at this
  | upgrade _ ho h ih => exact .upgrade ih ho h

theorem dutiful_reachable {x : Nat} (h : Dutiful E i f s g t x) (hr : Reachable E f s) :
    Reachable E g t := by
  induction h with
  | start => exact hr
  | @slot g t u x _ h _ _ ih =>
    have := Reachable.call ih (.process_slots (t.slot + 1))
    unfold finalState at this
    rwa [h] at this
  | @block g t u x b _ h _ ih =>
    have := Reachable.call ih (.process_block b)
    unfold finalState at this
    rwa [h] at this
  | upgrade _ ho h ih => exact .upgrade ih ho h

theorem dutiful_duty {x : Nat} (h : Dutiful E i f s g t x) : Duty E s t := by
  induction h with
  | start => exact (dutyPre E).refl _
  | slot _ hx _ _ ih => exact (dutyPre E).trans ih (slots_duty.toOk.ok hx)
  | block _ hx _ ih => exact (dutyPre E).trans ih (block_duty.toOk.ok hx)
  | upgrade _ _ hx ih => exact (dutyPre E).trans ih (upgrade_duty hx).1

theorem dutiful_innocent {x : Nat} (h : Dutiful E i f s g t x) {v : Validator}
    (hv : s.validators[i]? = some v) (hs : v.slashed = false)
    (hk : ¬ Offender E s.genesis_validators_root v.public_key) :
    ∃ w, t.validators[i]? = some w ∧ w.slashed = false := by
  obtain ⟨w, h1, -, h2⟩ := C97_innocent (dutiful_future h) i v hv hs hk
  exact ⟨w, h1, h2⟩

theorem dutiful_keeps (hE : SaneConfig E) (hB : SaneBalances E)
    (hI : E.effective_balance_increment < 2 ^ 64) (hmax : 0 < E.max_deposits)
    (hV : E.min_seed_lookahead + 3 < E.epochs_per_historical_vector) (hr : Reachable E f s)
    {x : Nat} (h : Dutiful E i f s g t x) {v : Validator}
    (hv : s.validators[i]? = some v) (hu : v.slashed = false)
    (hk : ¬ Offender E s.genesis_validators_root v.public_key) (hfit : Modest E t) :
    wealth f s i ≤ wealth g t i + x := by
  induction h with
  | start => exact Nat.le_refl _
  | @slot g t u x h hx ha hs ih =>
    have := ih (hfit.back (slots_duty.toOk.ok hx))
    obtain ⟨w, hw, hws⟩ := dutiful_innocent h hv hu hk
    have := slot_keeps hE hB hI (dutiful_reachable h hr) hx hw hws ha hs
    omega
  | @block g t u x b h hx hs ih =>
    have hm := hfit.back (block_duty.toOk.ok hx)
    have := ih hm
    obtain ⟨w, hw, hws⟩ := dutiful_innocent h hv hu hk
    obtain ⟨w', hw', hws'⟩ := dutiful_innocent (.block h hx hs) hv hu hk
    have := block_keeps hE hmax hV hm.slot hm.registry (dutiful_reachable h hr)
      hx hw hw' hws' hs
    omega
  | @upgrade g k t u x h hord hx ih =>
    have := ih (hfit.back (upgrade_duty hx).1)
    have hp := (reachable_inv hE (dutiful_reachable h hr)).parallel
    have := upgrade_keeps (i := i) hord hp.1 hx
    omega

end Verif.Props
