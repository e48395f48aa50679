import Verif.Proofs.Basic
import Verif.Model.Phase0.Shuffle
import Verif.Spec.Shuffle

namespace Verif

open Spec

theorem leValue_eq (bs : List UInt8) : ofLeBytes bs = leValue bs := by
  induction bs with
  | nil => rfl
  | cons b bs ih => simp [ofLeBytes, leValue] at *; omega

theorem leBytes4 (x : Nat) : leBytes 4 x = le4 x := by
  simp [leBytes, le4, Nat.div_div_eq_div_mul]

theorem and_ff (j : Nat) : j &&& 0xff = j % 256 := Nat.and_two_pow_sub_one_eq_mod j 8
theorem and_07 (j : Nat) : j &&& 0x07 = j % 8 := Nat.and_two_pow_sub_one_eq_mod j 3
theorem shr8 (j : Nat) : j >>> 8 = j / 256 := Nat.shiftRight_eq_div_pow j 8
theorem shr3 (j : Nat) : j >>> 3 = j / 8 := Nat.shiftRight_eq_div_pow j 3
theorem shr1 (j : Nat) : j >>> 1 = j / 2 := Nat.shiftRight_eq_div_pow j 1

theorem bit_ne_zero (b k : Nat) : ((b >>> k) % 2 ≠ 0) ↔ b.testBit k = true := by
  simp [Nat.testBit, Nat.and_comm 1, Nat.and_one_is_mod]

theorem bit_eq_one (b k : Nat) : ((b >>> k) &&& 1 = 1) ↔ b.testBit k = true := by
  simp [Nat.testBit, Nat.and_comm 1, Nat.and_one_is_mod]

section
variable (E : Env) (seed : Bytes32)

theorem source_block_eq (round b : Nat) :
    source_block E seed round b = E.hash (seed.toList ++ [UInt8.ofNat round] ++ le4 b) := by
  rw [source_block, leBytes4]

theorem pivot_eq (n round : Nat) : pivot_word E seed round % n = pivot E.hash seed n round := by
  rw [pivot_word, pivot, leValue_eq]

theorem pivot_lt (n round : Nat) (hn : 0 < n) : pivot E.hash seed n round < n :=
  Nat.mod_lt _ hn

theorem mirror_lt {p n i : Nat} (hn : 0 < n) : mirror p n i < n := Nat.mod_lt _ hn

theorem mirror_of_le {p n i : Nat} (hp : p < n) (hi : i ≤ p) : mirror p n i = p - i := by
  unfold mirror
  rw [show p + (n - i) = (p - i) + n by omega, Nat.add_mod_right, Nat.mod_eq_of_lt (by omega)]

theorem mirror_of_gt {p n i : Nat} (hi : p < i) (hin : i < n) : mirror p n i = p + n - i := by
  unfold mirror
  rw [Nat.mod_eq_of_lt (by omega)]; omega

theorem mirror_mirror {p n i : Nat} (hp : p < n) (hi : i < n) : mirror p n (mirror p n i) = i := by
  by_cases h : i ≤ p
  · rw [mirror_of_le hp h, mirror_of_le hp (by omega)]; omega
  · rw [mirror_of_gt (by omega) hi, mirror_of_gt (by omega) (by omega)]; omega

theorem swapOrNot_lt {n round i : Nat} (hi : i < n) : swapOrNot E.hash seed n round i < n := by
  unfold swapOrNot
  simp only
  split
  · exact mirror_lt (by omega)
  · exact hi

theorem swapOrNot_swapOrNot {n round i : Nat} (hi : i < n) :
    swapOrNot E.hash seed n round (swapOrNot E.hash seed n round i) = i := by
  have hp := pivot_lt E seed n round (by omega)
  unfold swapOrNot
  simp only
  by_cases h : decisionBit E.hash seed round (max i (mirror (pivot E.hash seed n round) n i))
  · simp only [h, if_true, mirror_mirror hp hi]
    rw [Nat.max_comm]; simp [h]
  · simp [h]

theorem shuffle_round_eq {n round i : Nat} (hi : i < n) (hn : 2 * n < U64_BOUND) :
    shuffle_round E seed n round i = .ok (swapOrNot E.hash seed n round i) := by
  have hp := pivot_lt E seed n round (by omega)
  unfold shuffle_round
  rw [mod_ok (by omega), R_bind_ok, pivot_eq, add_ok (by omega), R_bind_ok,
    sub_ok (by omega), R_bind_ok, mod_ok (by omega), R_bind_ok]
  have hm : (pivot E.hash seed n round + n - i) % n = mirror (pivot E.hash seed n round) n i := by
    unfold mirror; congr 1; omega
  rw [hm]
  unfold swapOrNot
  simp only [bit_ne_zero, source_block_eq]
  generalize mirror (pivot E.hash seed n round) n i = j
  have hlt : max i j % 256 / 8 <
    (E.hash (seed.toList ++ [UInt8.ofNat round] ++ le4 (max i j / 256))).toList.length := by
    rw [Vector.length_toList]; omega
  rw [idx_ok hlt, R_bind_ok, R_pure]
  unfold decisionBit
  simp only [List.getElem?_eq_getElem hlt, Option.getD_some]


theorem foldlM_shuffle_round {n : Nat} (hn : 2 * n < U64_BOUND) (rounds i : Nat) (hi : i < n) :
    (List.range rounds).foldlM (fun index round => shuffle_round E seed n round index) i =
      .ok (shuffledIndex E.hash seed n rounds i) ∧ shuffledIndex E.hash seed n rounds i < n := by
  induction rounds with
  | zero => simp [shuffledIndex, hi]
  | succ r ih =>
    obtain ⟨ih1, ih2⟩ := ih
    refine ⟨?_, swapOrNot_lt E seed ih2⟩
    rw [List.range_succ, List.foldlM_append, ih1, R_bind_ok]
    simp only [List.foldlM_cons, List.foldlM_nil, shuffle_round_eq E seed ih2 hn, R_bind_ok,
      R_pure, shuffledIndex]

theorem compute_shuffled_index_eq {n i : Nat} (hn : 2 * n < U64_BOUND) (hi : i < n) :
    compute_shuffled_index E i n seed =
      .ok (shuffledIndex E.hash seed n E.shuffle_round_count i) := by
  unfold compute_shuffled_index
  rw [show decide (i ≥ n) = false by simp; omega]
  simp only [rejectIf_false, R_bind_ok]
  exact (foldlM_shuffle_round E seed hn _ _ hi).1

theorem compute_shuffled_index_ge {n i : Nat} (hi : n ≤ i) :
    compute_shuffled_index E i n seed = .error .invalidShufflingIndex := by
  unfold compute_shuffled_index
  rw [show decide (i ≥ n) = true by simp; omega]
  rfl

theorem shuffledIndex_lt {n i : Nat} (rounds : Nat) (hi : i < n) :
    shuffledIndex E.hash seed n rounds i < n := by
  induction rounds with
  | zero => exact hi
  | succ r ih => exact swapOrNot_lt E seed ih

theorem shuffledIndex_inj {n i j : Nat} (rounds : Nat) (hi : i < n) (hj : j < n)
    (h : shuffledIndex E.hash seed n rounds i = shuffledIndex E.hash seed n rounds j) : i = j := by
  induction rounds with
  | zero => exact h
  | succ r ih =>
    apply ih
    have := congrArg (swapOrNot E.hash seed n r) h
    rwa [shuffledIndex, shuffledIndex, swapOrNot_swapOrNot E seed (shuffledIndex_lt E seed r hi),
      swapOrNot_swapOrNot E seed (shuffledIndex_lt E seed r hj)] at this

theorem shuffledIndex_surj {n j : Nat} (rounds : Nat) (hj : j < n) :
    ∃ i, i < n ∧ shuffledIndex E.hash seed n rounds i = j := by
  induction rounds generalizing j with
  | zero => exact ⟨j, hj, rfl⟩
  | succ r ih =>
    obtain ⟨i, hi, h⟩ := ih (swapOrNot_lt E seed (round := r) hj)
    exact ⟨i, hi, by rw [shuffledIndex, h, swapOrNot_swapOrNot E seed hj]⟩

/-! ## The list version -/

/-- The byte the inner loops should look at for position `j`. -/
def blockByte (round j : Nat) : UInt8 :=
  (source_block E seed round (j / 256)).toList[j % 256 / 8]?.getD 0

theorem decisionBit_eq (round j : Nat) :
    decisionBit E.hash seed round j = (blockByte E seed round j).toNat.testBit (j % 8) := by
  rw [decisionBit, blockByte, source_block_eq]

/-- The cached block and byte are right for `j` or will be refreshed at `j`. -/
def CacheOK (round j : Nat) (a : ShuffleAcc) : Prop :=
  (j % 256 = 255 ∨ a.source = source_block E seed round (j / 256)) ∧
    (j % 8 = 7 ∨ a.byte_source = blockByte E seed round j)

theorem idx_source (round b k : Nat) (hk : k < 32) :
    idx (source_block E seed round b).toList k =
      .ok ((source_block E seed round b).toList[k]?.getD 0) := by
  have : k < (source_block E seed round b).toList.length := by
    rw [Vector.length_toList]; exact hk
  rw [idx_ok this, List.getElem?_eq_getElem this, Option.getD_some]

theorem shuffle_step_eq {round i j : Nat} {a : ShuffleAcc} (h : CacheOK E seed round j a)
    (hi : i < a.input.length) (hj : j < a.input.length) :
    shuffle_step E seed round i j a =
      .ok { input := if decisionBit E.hash seed round j then
                (a.input.set i a.input[j]).set j a.input[i] else a.input,
            source := source_block E seed round (j / 256),
            byte_source := blockByte E seed round j } := by
  obtain ⟨h1, h2⟩ := h
  unfold shuffle_step
  simp only [and_ff, and_07, shr8, shr3, bit_eq_one]
  have hs : (if j % 256 = 255 then source_block E seed round (j / 256) else a.source) =
      source_block E seed round (j / 256) := by
    split
    · rfl
    · rcases h1 with h1 | h1
      · contradiction
      · exact h1
  simp only [hs]
  have hb : (if j % 8 = 7 then
      idx (source_block E seed round (j / 256)).toList (j % 256 / 8) else pure a.byte_source) =
      .ok (blockByte E seed round j) := by
    split
    · rw [idx_source E seed _ _ _ (by omega)]; rfl
    · rcases h2 with h2 | h2
      · contradiction
      · rw [h2]; rfl
  rw [hb, R_bind_ok, ← decisionBit_eq]
  split
  · simp [swapIdx, idx_ok hi, idx_ok hj]
  · simp

theorem CacheOK_next {round j : Nat} {input : List Nat} (hj : 0 < j) :
    CacheOK E seed round (j - 1)
      { input, source := source_block E seed round (j / 256),
        byte_source := blockByte E seed round j } := by
  constructor
  · by_cases h : (j - 1) % 256 = 255
    · exact .inl h
    · right
      show source_block E seed round (j / 256) = _
      congr 1; omega
  · by_cases h : (j - 1) % 8 = 7
    · exact .inl h
    · right
      show blockByte E seed round j = _
      unfold blockByte
      rw [show (j - 1) / 256 = j / 256 by omega, show (j - 1) % 256 / 8 = j % 256 / 8 by omega]

/-- What the inner loop has done after `t` iterations. -/
def halfMap (round c d t x : Nat) : Nat :=
  if c ≤ x ∧ x < c + t then
    if decisionBit E.hash seed round (c + d - x) then c + d - x else x
  else if d < x + t ∧ x ≤ d then
    if decisionBit E.hash seed round x then c + d - x else x
  else x

theorem inner_loop {round c d : Nat} (T : Nat) (a : ShuffleAcc) (hd : d < a.input.length)
    (hT : c + 2 * T ≤ d + 1) (hc : T = 0 ∨ CacheOK E seed round d a) :
    ∃ a', (List.range T).foldlM
      (fun a k => do
        let j ← d -? k
        shuffle_step E seed round (c + k) j a) a = .ok a' ∧
      a'.input.length = a.input.length ∧
      (∀ x, a'.input[x]? = a.input[halfMap E seed round c d T x]?) ∧
      (T = 0 ∨ a'.source = source_block E seed round ((d + 1 - T) / 256) ∧
        a'.byte_source = blockByte E seed round (d + 1 - T)) := by
  induction T with
  | zero =>
    refine ⟨a, rfl, rfl, fun x => ?_, .inl rfl⟩
    congr 1
    unfold halfMap; split
    · omega
    · split
      · omega
      · rfl
  | succ t ih =>
    have hc : CacheOK E seed round d a := by
      rcases hc with hc | hc
      · omega
      · exact hc
    obtain ⟨b, hb, hlen, hmap, hcache⟩ := ih (by omega) (.inr hc)
    have hcb : CacheOK E seed round (d - t) b := by
      rcases hcache with rfl | ⟨h1, h2⟩
      · simp only [List.range_zero, List.foldlM_nil, R_pure, Except.ok.injEq] at hb
        subst hb; simpa using hc
      · have := CacheOK_next E seed (round := round) (j := d + 1 - t) (input := b.input) (by omega)
        rw [← h1, ← h2, show d + 1 - t - 1 = d - t by omega] at this
        exact this
    have hstep := shuffle_step_eq E seed (i := c + t) hcb (by omega) (by omega)
    rw [List.range_succ, List.foldlM_append, hb, R_bind_ok]
    simp only [List.foldlM_cons, List.foldlM_nil, sub_ok (show t ≤ d by omega), R_bind_ok, hstep,
      R_pure]
    refine ⟨_, rfl, ?_, ?_, .inr ?_⟩
    · simp only; split <;> simp [hlen]
    · intro x
      simp only
      have hbi : b.input[c + t]? = a.input[c + t]? := by
        rw [hmap]; congr 1; unfold halfMap
        rw [if_neg (by omega), if_neg (by omega)]
      have hbj : b.input[d - t]? = a.input[d - t]? := by
        rw [hmap]; congr 1; unfold halfMap
        rw [if_neg (by omega), if_neg (by omega)]
      by_cases hx1 : x = c + t
      · subst hx1
        have hm : halfMap E seed round c d (t + 1) (c + t) =
            if decisionBit E.hash seed round (d - t) then d - t else c + t := by
          unfold halfMap
          rw [if_pos (by omega), show c + d - (c + t) = d - t by omega]
        rw [hm]
        split
        · rw [List.getElem?_set_ne (by omega), List.getElem?_set_self (by omega), ← hbj,
            List.getElem?_eq_getElem]
        · exact hbi
      · by_cases hx2 : x = d - t
        · subst hx2
          have hm : halfMap E seed round c d (t + 1) (d - t) =
              if decisionBit E.hash seed round (d - t) then c + t else d - t := by
            unfold halfMap
            rw [if_neg (by omega), if_pos (by omega), show c + d - (d - t) = c + t by omega]
          rw [hm]
          split
          · rw [List.getElem?_set_self (by simp; omega), ← hbi, List.getElem?_eq_getElem]
          · exact hbj
        · have hm : halfMap E seed round c d (t + 1) x = halfMap E seed round c d t x := by
            unfold halfMap
            by_cases h1 : c ≤ x ∧ x < c + t
            · rw [if_pos h1, if_pos (by omega)]
            · rw [if_neg h1, if_neg (by omega)]
              by_cases h2 : d < x + t ∧ x ≤ d
              · rw [if_pos h2, if_pos (by omega)]
              · rw [if_neg h2, if_neg (by omega)]
          rw [hm, ← hmap]
          split
          · rw [List.getElem?_set_ne (by omega), List.getElem?_set_ne (by omega)]
          · rfl
    · simp only
      rw [show d + 1 - (t + 1) = d - t by omega]
      exact ⟨rfl, rfl⟩

theorem shuffle_list_round_eq {round : Nat} (xs : List Nat) (hpos : 0 < xs.length)
    (hn : 2 * xs.length < U64_BOUND) :
    ∃ ys, shuffle_list_round E seed round xs = .ok ys ∧ ys.length = xs.length ∧
      ∀ x, x < xs.length → ys[x]? = xs[swapOrNot E.hash seed xs.length round x]? := by
  have hp := pivot_lt E seed xs.length round hpos
  have hB := U64_BOUND_eq
  unfold shuffle_list_round
  simp only
  rw [mod_ok (by omega), R_bind_ok, pivot_eq, idx_source E seed _ _ _ (by
    rw [and_ff, shr3]; omega), R_bind_ok, add_ok (by omega), R_bind_ok]
  generalize hpv : pivot E.hash seed xs.length round = p at hp ⊢
  obtain ⟨a, ha, halen, hamap, -⟩ := inner_loop E seed (round := round) (c := 0) (d := p)
    ((p + 1) >>> 1)
    { input := xs, source := source_block E seed round (p >>> 8),
      byte_source := (source_block E seed round (p >>> 8)).toList[(p &&& 0xff) >>> 3]?.getD 0 }
    hp (by rw [shr1]; omega) (.inr ⟨.inr (by rw [shr8]), .inr (by rw [shr8, and_ff, shr3]; rfl)⟩)
  simp only [Nat.zero_add] at ha
  rw [ha, R_bind_ok, sub_ok (by omega), R_bind_ok, idx_source E seed _ _ _ (by
    rw [and_ff, shr3]; omega), R_bind_ok, add_ok (by omega), R_bind_ok, add_ok (by omega),
    R_bind_ok]
  obtain ⟨b, hb, hblen, hbmap, -⟩ := inner_loop E seed (round := round) (c := p + 1)
    (d := xs.length - 1) ((p + xs.length + 1) >>> 1 - (p + 1))
    { input := a.input, source := source_block E seed round ((xs.length - 1) >>> 8),
      byte_source := (source_block E seed round ((xs.length - 1) >>> 8)).toList[
        ((xs.length - 1) &&& 0xff) >>> 3]?.getD 0 }
    (by simp only at halen ⊢; omega) (by rw [shr1]; omega)
    (.inr ⟨.inr (by rw [shr8]), .inr (by rw [shr8, and_ff, shr3]; rfl)⟩)
  rw [hb, R_bind_ok]
  refine ⟨_, rfl, by simp only at hblen halen; omega, fun x hx => ?_⟩
  rw [hbmap]
  simp only
  rw [hamap]
  simp only
  congr 1
  rw [shr1, shr1]
  unfold swapOrNot
  simp only [hpv]
  by_cases hxp : x ≤ p
  · rw [mirror_of_le hp hxp]
    have h2 : halfMap E seed round (p + 1) (xs.length - 1)
        ((p + xs.length + 1) / 2 - (p + 1)) x = x := by
      unfold halfMap
      rw [if_neg (by omega), if_neg (by omega)]
    rw [h2]
    unfold halfMap
    by_cases h1 : 0 ≤ x ∧ x < 0 + (p + 1) / 2
    · rw [if_pos h1, Nat.zero_add, show max x (p - x) = p - x by omega]
    · rw [if_neg h1]
      by_cases h3 : p < x + (p + 1) / 2 ∧ x ≤ p
      · rw [if_pos h3, Nat.zero_add, show max x (p - x) = x by omega]
      · rw [if_neg h3, show p - x = x by omega]; simp
  · rw [mirror_of_gt (by omega) hx]
    have h1 : ∀ y, p < y → halfMap E seed round 0 p ((p + 1) / 2) y = y := by
      intro y hy
      unfold halfMap
      rw [if_neg (by omega), if_neg (by omega)]
    rw [h1 _ (by unfold halfMap; repeat' split
                 all_goals omega)]
    have e : p + 1 + (xs.length - 1) = p + xs.length := by omega
    unfold halfMap
    by_cases h3 : p + 1 ≤ x ∧ x < p + 1 + ((p + xs.length + 1) / 2 - (p + 1))
    · rw [if_pos h3, e, show max x (p + xs.length - x) = p + xs.length - x by omega]
    · rw [if_neg h3]
      by_cases h4 : xs.length - 1 < x + ((p + xs.length + 1) / 2 - (p + 1)) ∧ x ≤ xs.length - 1
      · rw [if_pos h4, e, show max x (p + xs.length - x) = x by omega]
      · rw [if_neg h4, show p + xs.length - x = x by omega]
        simp only [ite_self]

theorem shuffle_rounds_eq (xs : List Nat) (hpos : 0 < xs.length)
    (hn : 2 * xs.length < U64_BOUND) (rounds : Nat) :
    ∃ ys, (List.range rounds).reverse.foldlM
        (fun input round => shuffle_list_round E seed round input) xs = .ok ys ∧
      ys.length = xs.length ∧
      ∀ x, x < xs.length → ys[x]? = xs[shuffledIndex E.hash seed xs.length rounds x]? := by
  induction rounds generalizing xs with
  | zero => exact ⟨xs, rfl, rfl, fun x _ => rfl⟩
  | succ r ih =>
    obtain ⟨ys, hys, hlen, hmap⟩ := shuffle_list_round_eq E seed (round := r) xs hpos hn
    obtain ⟨zs, hzs, hzlen, hzmap⟩ := ih ys (by omega) (by omega)
    refine ⟨zs, ?_, by omega, fun x hx => ?_⟩
    · rw [List.range_succ, List.reverse_append, List.reverse_singleton, List.singleton_append,
        List.foldlM_cons, hys, R_bind_ok, hzs]
    · rw [hzmap x (by omega), hlen, hmap _ (shuffledIndex_lt E seed r hx), shuffledIndex]

theorem compute_shuffled_indices_eq (xs : List Nat) (hn : 2 * xs.length < U64_BOUND)
    (hr : 0 < E.shuffle_round_count) :
    ∃ ys, compute_shuffled_indices E xs seed = .ok ys ∧ ys.length = xs.length ∧
      ∀ x, x < xs.length →
        ys[x]? = xs[shuffledIndex E.hash seed xs.length E.shuffle_round_count x]? := by
  unfold compute_shuffled_indices
  split
  · refine ⟨xs, rfl, rfl, fun x hx => ?_⟩
    rename_i h
    simp only [List.isEmpty_iff] at h
    simp [h] at hx
  · rename_i h
    have hpos : 0 < xs.length := by
      rw [List.length_pos_iff]; simpa using h
    rw [sub_ok (by omega), R_bind_ok, show E.shuffle_round_count - 1 + 1 =
      E.shuffle_round_count by omega]
    exact shuffle_rounds_eq E seed xs hpos hn _

end
end Verif
