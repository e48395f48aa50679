import Verif.Spec.Ancestry
import Verif.Proofs.Rotation
import Verif.Proofs.Genesis

/-! # The log of headers of a chain -/

namespace Verif

open Spec

/-! ## The latest header while blocks are processed -/

/-- Within a slot the latest header is replaced at most once, by one that names it as parent. -/
def HeaderStep (E : Env) (s s' : State) : Prop :=
  s'.slot = s.slot ∧ (s'.latest_block_header = s.latest_block_header ∨
    s.latest_block_header.slot < s.slot ∧ s'.latest_block_header.slot = s.slot ∧
      s'.latest_block_header.parent_root = E.header_root s.latest_block_header)

theorem headerStepPre (E : Env) : Preorder' (HeaderStep E) := by
  refine ⟨fun _ => ⟨rfl, Or.inl rfl⟩, ?_⟩
  rintro s t u ⟨h1, h2⟩ ⟨g1, g2⟩
  refine ⟨g1.trans h1, ?_⟩
  rcases g2 with g2 | ⟨g2, g3, g4⟩
  · rw [g2]; exact h2
  · rcases h2 with h2 | ⟨h2, h3, h4⟩
    · rw [h2, h1] at g2
      rw [h1] at g3
      rw [h2] at g4
      exact Or.inr ⟨g2, g3, g4⟩
    · omega

theorem headerStep_mod {α : Type} {E : Env} {W : List Field} {m : M α} (h : Modifies W m)
    (h1 : Field.slot ∉ W) (h2 : Field.latest_block_header ∉ W) : Pres (HeaderStep E) m :=
  Pres.mono h fun _ _ h => ⟨h _ h1, Or.inl (h _ h2)⟩

theorem header_headerStep {E : Env} {f : Fork} {b : BeaconBlock} :
    Pres (HeaderStep E) (process_block_header E f b) := by
  unfold process_block_header
  intro s
  have r0 := (headerStepPre E).refl s
  simp only [wps]
  refine ⟨fun _ h1 => ⟨fun _ h2 => ⟨fun p _ => ⟨fun _ _ => ⟨fun _ h3 => ?_, fun _ _ => r0⟩,
    fun _ _ => r0⟩, fun _ _ => r0⟩, fun _ _ => r0⟩, fun _ _ => r0⟩
  simp only [rejectIf_eq_ok, decide_eq_false_iff_not, ne_eq, Decidable.not_not] at h1 h2 h3
  have key : HeaderStep E s { s with latest_block_header := headerOf E f b } :=
    ⟨rfl, Or.inr ⟨by omega, h1, h3⟩⟩
  exact ⟨fun _ _ => ⟨fun _ _ => key, fun _ _ => key⟩, fun _ _ => key⟩

theorem block_headerStep {E : Env} {f : Fork} {b : BeaconBlock} :
    Pres (HeaderStep E) (process_block E f b) := by
  unfold process_block
  have pre := headerStepPre E
  walk pre [header_headerStep,
    headerStep_mod block_payload_mod (by decide) (by decide),
    headerStep_mod randao_mod (by decide) (by decide),
    headerStep_mod eth1_mod (by decide) (by decide),
    headerStep_mod operations_mod (by decide) (by decide),
    headerStep_mod sync_aggregate_mod (by decide) (by decide)]

/-! ## Chains -/

theorem Spec.Chain.log {E : Env} {f₀ f : Fork} {s₀ s : State} {hs : List BeaconBlockHeader}
    (hg : IsGenesis E f₀ s₀) (h : Chain E f₀ s₀ f s hs) :
    ∃ log, ChainLog E f s log ∧ log.map (·.1) = hs.map E.header_root := by
  obtain ⟨_, _, _, _, hg⟩ := hg
  induction h with
  | start => exact ⟨[], .genesis hg, rfl⟩
  | slot _ h ih =>
    obtain ⟨log, h1, h2⟩ := ih
    exact ⟨_, .slot h1 h, by simp [h2]⟩
  | block b _ ih =>
    obtain ⟨log, h1, h2⟩ := ih
    exact ⟨_, .block b h1, h2⟩
  | upgrade _ ho h ih =>
    obtain ⟨log, h1, h2⟩ := ih
    exact ⟨_, .upgrade h1 ho h, h2⟩

/-- What is known about the headers of a chain. -/
structure HeaderInv (E : Env) (s : State) (hs : List BeaconBlockHeader) : Prop where
  slot : s.slot = hs.length
  latest : s.latest_block_header.slot < s.slot ∧ hs[s.slot - 1]? = some s.latest_block_header ∨
    s.latest_block_header.slot = s.slot ∧ (0 < s.slot → ∃ p, hs[s.slot - 1]? = some p ∧
      s.latest_block_header.parent_root = E.header_root p)
  entry : ∀ (n : Nat) (h : BeaconBlockHeader), hs[n]? = some h → h.slot ≤ n ∧
    (∀ m, h.slot ≤ m → m ≤ n → hs[m]? = some h) ∧
    (0 < h.slot → ∃ p, hs[h.slot - 1]? = some p ∧ h.parent_root = E.header_root p)

theorem closedHeader_slot {E : Env} {f : Fork} {s : State} :
    (closedHeader E f s).slot = s.latest_block_header.slot ∧
    (closedHeader E f s).parent_root = s.latest_block_header.parent_root := by
  unfold closedHeader; split <;> exact ⟨rfl, rfl⟩

theorem chain_headers {E : Env} {f₀ f : Fork} {s₀ s : State} {hs : List BeaconBlockHeader}
    (hg : IsGenesis E f₀ s₀) (h : Chain E f₀ s₀ f s hs)
    (hz : ∀ h ∈ hs, h.state_root ≠ zeroBytes 32) : HeaderInv E s hs := by
  induction h with
  | start =>
    obtain ⟨_, _, _, _, hg⟩ := hg
    obtain ⟨h1, h2, -⟩ := genesis_common hg
    exact ⟨h1, Or.inr ⟨h2.trans h1.symm, by omega⟩, by simp⟩
  | @block f s hs b _ ih =>
    obtain ⟨i1, i2, i3⟩ := ih hz
    obtain ⟨h1, h2⟩ := (block_headerStep (E := E) (f := f) (b := b)).final s
    refine ⟨h1.trans i1, ?_, i3⟩
    rw [h1]
    rcases h2 with h2 | ⟨h2, h3, h4⟩
    · rw [h2]; exact i2
    · right
      refine ⟨h3, fun _ => ?_⟩
      rcases i2 with ⟨-, i2⟩ | ⟨i2, -⟩
      · exact ⟨_, i2, h4⟩
      · omega
  | @upgrade f g s s' hs _ ho h ih =>
    obtain ⟨i1, i2, i3⟩ := ih hz
    obtain ⟨h1, h2, -⟩ := upgrade_common h
    exact ⟨h1.trans i1, by rw [h1, h2]; exact i2, i3⟩
  | @slot f s s' hs _ h ih =>
    obtain ⟨i1, i2, i3⟩ := ih fun h hh => hz h (by simp [hh])
    obtain ⟨h1, -, -, h2⟩ := slot_step_roots (process_slots_one h)
    obtain ⟨c1, c2⟩ := closedHeader_slot (E := E) (f := f) (s := s)
    have hnew : (hs ++ [closedHeader E f s])[s.slot]? = some (closedHeader E f s) := by
      rw [i1]; exact List.getElem?_concat_length
    have hold : ∀ {n : Nat} {x}, hs[n]? = some x → (hs ++ [closedHeader E f s])[n]? = some x := by
      intro n x hx
      rw [List.getElem?_append_left (List.getElem?_eq_some_iff.1 hx).1, hx]
    have hle : s.latest_block_header.slot ≤ s.slot := by rcases i2 with ⟨i2, -⟩ | ⟨i2, -⟩ <;> omega
    refine ⟨by rw [h1, i1]; simp, Or.inl ⟨by rw [h1, h2, c1]; omega, ?_⟩, ?_⟩
    · rw [h1, h2]; exact hnew
    intro n x hx
    by_cases hn : n < hs.length
    · rw [List.getElem?_append_left hn] at hx
      obtain ⟨j1, j2, j3⟩ := i3 n x hx
      refine ⟨j1, fun m hm hm' => hold (j2 m hm hm'), fun h0 => ?_⟩
      obtain ⟨p, hp, hp'⟩ := j3 h0
      exact ⟨p, hold hp, hp'⟩
    · have hn' : n = s.slot := by
        have := (List.getElem?_eq_some_iff.1 hx).1
        rw [List.length_append, List.length_singleton] at this
        omega
      subst hn'
      rw [hnew] at hx; cases hx
      rcases i2 with ⟨i2, i4⟩ | ⟨i2, i4⟩
      · have hc : closedHeader E f s = s.latest_block_header :=
          if_neg (hz _ (by simp [List.mem_of_getElem? i4]))
        obtain ⟨j1, j2, j3⟩ := i3 _ _ i4
        rw [hc] at hnew ⊢
        rw [hc] at hold
        refine ⟨hle, fun m hm hm' => ?_, fun h0 => ?_⟩
        · rcases Nat.lt_or_ge m s.slot with hlt | hge
          · exact hold (j2 m hm (by omega))
          · have : m = s.slot := by omega
            subst this; exact hnew
        · obtain ⟨p, hp, hp'⟩ := j3 h0
          exact ⟨p, hold hp, hp'⟩
      · refine ⟨by omega, fun m hm hm' => ?_, fun h0 => ?_⟩
        · have : m = s.slot := by omega
          subst this; exact hnew
        · rw [c1, i2] at h0 ⊢
          obtain ⟨p, hp, hp'⟩ := i4 h0
          exact ⟨p, hold hp, by rw [c2, hp']⟩

/-- The entries of two logs agree up to the slot of a common block. -/
theorem logs_agree {E : Env} {sA sB : State} {hA hB : List BeaconBlockHeader}
    (iA : HeaderInv E sA hA) (iB : HeaderInv E sB hB)
    (hc : ∀ h ∈ hA, ∀ h' ∈ hB, E.header_root h = E.header_root h' → h = h')
    {n m : Nat} {x y : BeaconBlockHeader} (hx : hA[n]? = some x) (hy : hB[m]? = some y)
    (hr : E.header_root x = E.header_root y) :
    x = y ∧ x.slot ≤ n ∧ x.slot ≤ m ∧ ∀ j ≤ x.slot, hA[j]? = hB[j]? := by
  have key : ∀ (k n m : Nat) (x y : BeaconBlockHeader), x.slot = k → hA[n]? = some x → hB[m]? = some y →
      E.header_root x = E.header_root y → x = y ∧ ∀ j ≤ k, hA[j]? = hB[j]? := by
    intro k
    induction k using Nat.strongRecOn with
    | ind k ih =>
      intro n m x y hk hx hy hr
      have hxy := hc x (List.mem_of_getElem? hx) y (List.mem_of_getElem? hy) hr
      refine ⟨hxy, ?_⟩
      subst hxy
      obtain ⟨a1, a2, a3⟩ := iA.entry n x hx
      obtain ⟨b1, b2, b3⟩ := iB.entry m x hy
      intro j hj
      rcases Nat.lt_or_ge j k with hlt | hge
      · obtain ⟨p, hp, hp'⟩ := a3 (by omega)
        obtain ⟨q, hq, hq'⟩ := b3 (by omega)
        have hpq : E.header_root p = E.header_root q := by rw [← hp', ← hq']
        obtain ⟨c1, c2, -⟩ := iA.entry _ p hp
        obtain ⟨d1, d2, -⟩ := iB.entry _ q hq
        obtain ⟨rfl, h2⟩ := ih p.slot (by omega) _ _ p q rfl hp hq hpq
        rcases Nat.lt_or_ge j p.slot with h3 | h3
        · exact h2 j (by omega)
        · rw [c2 j h3 (by omega), d2 j h3 (by omega)]
      · have : j = k := by omega
        subst this
        rw [a2 j (by omega) (by omega), b2 j (by omega) (by omega)]
  obtain ⟨h1, h2⟩ := key _ n m x y rfl hx hy hr
  subst h1
  exact ⟨rfl, (iA.entry n x hx).1, (iB.entry m x hy).1, h2⟩

theorem logs_agree_at {E : Env} {sA sB : State} {hA hB : List BeaconBlockHeader}
    (iA : HeaderInv E sA hA) (iB : HeaderInv E sB hB)
    (hc : ∀ h ∈ hA, ∀ h' ∈ hB, E.header_root h = E.header_root h' → h = h')
    {n : Nat} {x y : BeaconBlockHeader} (hx : hA[n]? = some x) (hy : hB[n]? = some y)
    (hr : E.header_root x = E.header_root y) : ∀ j ≤ n, hA[j]? = hB[j]? := by
  obtain ⟨rfl, h1, -, h2⟩ := logs_agree iA iB hc hx hy hr
  intro j hj
  rcases Nat.lt_or_ge j x.slot with h3 | h3
  · exact h2 j (by omega)
  · rw [(iA.entry n x hx).2.1 j h3 hj, (iB.entry n x hy).2.1 j h3 hj]

/-- A state's record of block roots is the log. -/
theorem block_root_rootAt {E : Env} (hE : SaneConfig E)
    (hd : E.slots_per_epoch ∣ E.slots_per_historical_root) {f₀ f : Fork} {s₀ s : State}
    {hs : List BeaconBlockHeader} (hg : IsGenesis E f₀ s₀) (h : Chain E f₀ s₀ f s hs)
    {n : Nat} {r : Root} (hr : get_block_root_at_slot E s n = .ok r) : rootAt E hs n = some r := by
  obtain ⟨log, h1, h2⟩ := h.log hg
  have inv := chainLog_inv hE hd h1
  obtain ⟨r1, r2, -, -, r5⟩ := block_root_at_slot_eq_ok.1 hr
  rw [inv.slot] at r1
  obtain ⟨w, -⟩ := inv.window n _ (List.getElem?_eq_getElem r1) r2
  rw [r5] at w
  unfold rootAt
  rw [← List.getElem?_map, ← h2, List.getElem?_map, List.getElem?_eq_getElem r1]
  exact w.symm

end Verif
