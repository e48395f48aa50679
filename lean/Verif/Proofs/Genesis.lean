import Verif.Spec.Genesis
import Verif.Spec.Queues
import Verif.Proofs.Deposits
import Verif.Proofs.History
import Verif.Proofs.Pointwise

/-! # Genesis -/

namespace Verif
open Spec

variable {E : Env} {f : Fork} {pre : List DepositData} {d : DepositData}

theorem opens_lt {ds : List DepositData} {j : Nat} (h : Opens E ds j) : j < ds.length := by
  obtain ⟨d, hd, -⟩ := h
  exact (List.getElem?_eq_some_iff.mp hd).1

theorem opens_prefix {j : Nat} (hj : j < pre.length) :
    Opens E (pre ++ [d]) j ↔ Opens E pre j := by
  unfold Opens
  rw [List.getElem?_append_left hj, List.take_append_of_le_length (Nat.le_of_lt hj)]

theorem opens_last : Opens E (pre ++ [d]) pre.length ↔
    DepositSigned E d ∧ ∀ d' ∈ pre, d'.public_key = d.public_key → ¬ DepositSigned E d' := by
  unfold Opens
  simp

theorem openers_append : openers E (pre ++ [d]) =
    openers E pre ++ if Opens E (pre ++ [d]) pre.length then [pre.length] else [] := by
  unfold openers
  rw [List.length_append, List.length_singleton, List.range_succ, List.filter_append]
  congr 1
  · apply List.filter_congr
    intro j hj
    rw [decide_eq_decide]
    exact opens_prefix (List.mem_range.mp hj)
  · rw [List.filter_singleton]
    by_cases h : Opens E (pre ++ [d]) pre.length
    · simp [h]
    · simp [h]

theorem openers_opens {ds : List DepositData} {i j : Nat} (h : (openers E ds)[i]? = some j) :
    Opens E ds j := by
  have := List.mem_of_getElem? h
  unfold openers at this
  simpa using (List.mem_filter.mp this).2

theorem openers_inj {ds : List DepositData} {i i' j : Nat} (h : (openers E ds)[i]? = some j)
    (h' : (openers E ds)[i']? = some j) : i = i' := by
  have hn : (openers E ds).Nodup := List.nodup_range.filter _
  obtain ⟨h1, h2⟩ := List.getElem?_eq_some_iff.mp h
  obtain ⟨h3, h4⟩ := List.getElem?_eq_some_iff.mp h'
  exact (List.nodup_iff_injective_getElem.mp hn |> fun H => by
    have := @H ⟨i, h1⟩ ⟨i', h3⟩ (h2.trans h4.symm)
    simpa using this)

theorem opens_key {ds : List DepositData} {j j' : Nat} {a b : DepositData} (h : Opens E ds j)
    (h' : Opens E ds j') (ha : ds[j]? = some a) (hb : ds[j']? = some b)
    (hk : a.public_key = b.public_key) : j = j' := by
  obtain ⟨x, hx, sx, nx⟩ := h
  obtain ⟨y, hy, sy, ny⟩ := h'
  cases ha.symm.trans hx
  cases hb.symm.trans hy
  have key : ∀ {i k : Nat} {c : DepositData}, i < k → ds[i]? = some c → c ∈ ds.take k := by
    intro i k c hik hc
    apply List.mem_of_getElem? (i := i)
    rw [List.getElem?_take, if_pos hik, hc]
  rcases Nat.lt_trichotomy j j' with h | h | h
  · exact absurd sx (ny _ (key h ha) hk)
  · exact h
  · exact absurd sy (nx _ (key h hb) hk.symm)

theorem deposited_append {j : Nat} (hj : j ≤ pre.length) {k : PublicKey} :
    deposited (pre ++ [d]) j k = deposited pre j k + if d.public_key = k then d.amount else 0 := by
  unfold deposited
  rw [List.drop_append_of_le_length hj, List.filter_append, List.map_append, List.sum_append]
  congr 1
  by_cases h : d.public_key = k <;> simp [h]

theorem deposited_new : deposited (pre ++ [d]) pre.length d.public_key = d.amount := by
  unfold deposited
  simp

/-- The entries while the deposits in `pre` have been processed; their effective balances will be set
in the end, and in electra the balances are still in the queue. -/
structure Entries (E : Env) (f : Fork) (pre : List DepositData) (s : State) : Prop where
  validators : s.validators.length = (openers E pre).length
  balances : s.balances.length = (openers E pre).length
  entry : ∀ (i j : Nat) (d : DepositData), (openers E pre)[i]? = some j → pre[j]? = some d →
    ∃ v b, s.validators[i]? = some v ∧ s.balances[i]? = some b ∧
      v = { newValidator d v.effective_balance with
        withdrawal_credentials := openedCredentials f pre j d } ∧
      b + depositedTo s.pending_balance_deposits i = deposited pre j d.public_key ∧
      (f = .Electra → b = 0)
  known : ∀ d ∈ pre, DepositSigned E d → ∃ v ∈ s.validators, v.public_key = d.public_key
  pending : f ≠ .Electra → s.pending_balance_deposits = []
  targets : ∀ p ∈ s.pending_balance_deposits, p.index < s.validators.length

theorem entries_key {s : State} (h : Entries E f pre s) {i : Nat} {v : Validator}
    (hv : s.validators[i]? = some v) :
    ∃ j a, (openers E pre)[i]? = some j ∧ pre[j]? = some a ∧ Opens E pre j ∧
      v.public_key = a.public_key := by
  have hi := (List.getElem?_eq_some_iff.mp hv).1
  rw [h.validators] at hi
  have ho := List.getElem?_eq_getElem hi
  generalize (openers E pre)[i] = j at ho
  have hop := openers_opens ho
  have ha := List.getElem?_eq_getElem (opens_lt hop)
  obtain ⟨w, b, hw, -, h1, -⟩ := h.entry i j _ ho ha
  cases hv.symm.trans hw
  exact ⟨j, _, ho, ha, hop, by rw [h1]; rfl⟩

/-- A deposit for a key that is known opens nothing. -/
theorem known_not_opens {s : State} (h : Entries E f pre s) {i : Nat}
    (hk : FirstWithKey s d.public_key i) : ¬ Opens E (pre ++ [d]) pre.length := by
  obtain ⟨⟨v, hv, hvk⟩, -⟩ := hk
  obtain ⟨j, a, -, ha, ⟨x, hx, sx, -⟩, hka⟩ := entries_key h hv
  cases ha.symm.trans hx
  rw [opens_last]
  rintro ⟨-, h2⟩
  exact h2 a (List.mem_of_getElem? ha) (by rw [← hka, hvk]) sx

theorem known_entry {s : State} (h : Entries E f pre s) {i : Nat}
    (hk : FirstWithKey s d.public_key i) :
    ∃ j a, (openers E pre)[i]? = some j ∧ pre[j]? = some a ∧ a.public_key = d.public_key ∧
      ∀ i' j' a', (openers E pre)[i']? = some j' → pre[j']? = some a' →
        a'.public_key = d.public_key → i' = i := by
  obtain ⟨⟨v, hv, hvk⟩, -⟩ := hk
  obtain ⟨j, a, ho, ha, hop, hka⟩ := entries_key h hv
  refine ⟨j, a, ho, ha, by rw [← hka, hvk], ?_⟩
  intro i' j' a' ho' ha' hk'
  have : j' = j := opens_key (openers_opens ho') hop ha' ha (by rw [hk', ← hvk, hka])
  subst this
  exact openers_inj ho' ho

theorem unknown_ne {s : State} (h : Entries E f pre s) (hk : UnknownKey s d.public_key)
    {i j : Nat} {a : DepositData} (ho : (openers E pre)[i]? = some j) (ha : pre[j]? = some a) :
    d.public_key ≠ a.public_key := by
  obtain ⟨v, b, hv, -, h1, -⟩ := h.entry i j a ho ha
  intro hka
  refine hk v (List.mem_of_getElem? hv) ?_
  rw [h1, hka]; rfl

theorem getElem?_append_new {α : Type} {l : List α} {x a : α} {i : Nat}
    (h : (l ++ [x])[i]? = some a) : l[i]? = some a ∨ i = l.length ∧ a = x := by
  rcases Nat.lt_trichotomy i l.length with h1 | h1 | h1
  · rw [List.getElem?_append_left h1] at h; exact .inl h
  · subst h1; simp at h; exact .inr ⟨rfl, h.symm⟩
  · rw [List.getElem?_eq_none (by simp; omega)] at h; cases h

theorem opened_same (hf : f ≠ .Electra) {ds : List DepositData} {j : Nat} :
    openedCredentials f ds j d = d.withdrawal_credentials := by
  unfold openedCredentials
  rw [if_neg (fun h => hf h.1)]

/-- One deposit before electra. -/
theorem entries_step (hf : f ≠ .Electra) {s s' : State} (h : Entries E f pre s)
    (hd : DepositEffect E f d s s') : Entries E f (pre ++ [d]) s' := by
  cases hd with
  | topUp i b hk hb fits =>
    obtain ⟨j, a, ho, ha, hka, huniq⟩ := known_entry h hk
    have hops : openers E (pre ++ [d]) = openers E pre := by
      rw [openers_append, if_neg (known_not_opens h hk), List.append_nil]
    refine ⟨by rw [hops]; exact h.validators, by rw [hops, List.length_set]; exact h.balances, ?_,
      ?_, h.pending, h.targets⟩
    · rw [hops]
      intro i' j' a' ho' ha'
      have hj' := opens_lt (openers_opens ho')
      rw [List.getElem?_append_left hj'] at ha'
      obtain ⟨v, b', hv, hb', e1, e2, e3⟩ := h.entry i' j' a' ho' ha'
      rw [deposited_append (Nat.le_of_lt hj'), opened_same hf]
      rw [opened_same hf] at e1
      dsimp only
      rw [List.getElem?_set]
      by_cases hi : i = i'
      · subst hi
        cases ho.symm.trans ho'
        cases ha.symm.trans ha'
        cases hb.symm.trans hb'
        refine ⟨v, b + d.amount, hv, ?_, e1, ?_, fun h => absurd h hf⟩
        · rw [if_pos rfl, if_pos (List.getElem?_eq_some_iff.mp hb).1]
        · rw [if_pos hka.symm, ← e2]; omega
      · refine ⟨v, b', hv, by rw [if_neg hi]; exact hb', e1, ?_, e3⟩
        rw [if_neg (fun hk => hi (huniq i' j' a' ho' ha' hk.symm).symm)]
        exact e2
    · intro x hx sx
      rcases List.mem_append.mp hx with hx | hx
      · exact h.known x hx sx
      · simp only [List.mem_singleton] at hx
        subst hx
        obtain ⟨⟨v, hv, hvk⟩, -⟩ := hk
        exact ⟨v, List.mem_of_getElem? hv, hvk⟩
  | added hk sg =>
    have hop : Opens E (pre ++ [d]) pre.length := by
      rw [opens_last]
      refine ⟨sg, fun d' hd' hkk hs => ?_⟩
      obtain ⟨v, hv, hvk⟩ := h.known d' hd' hs
      exact hk v hv (hvk.trans hkk)
    have hops : openers E (pre ++ [d]) = openers E pre ++ [pre.length] := by
      rw [openers_append, if_pos hop]
    generalize ht : withValidator f s (newValidator d (depositEffective E d.amount)) d.amount = t
    have tv : t.validators = s.validators ++ [newValidator d (depositEffective E d.amount)] := by
      rw [← ht]; unfold withValidator; split <;> rfl
    have tb : t.balances = s.balances ++ [d.amount] := by
      rw [← ht]; unfold withValidator; split <;> rfl
    have tp : t.pending_balance_deposits = s.pending_balance_deposits := by
      rw [← ht]; unfold withValidator; split <;> rfl
    refine ⟨by rw [hops, tv, List.length_append, List.length_append, h.validators]; rfl,
      by rw [hops, tb, List.length_append, List.length_append, h.balances]; rfl, ?_, ?_,
      fun hf => by rw [tp]; exact h.pending hf, ?_⟩
    · rw [hops, tv, tb, tp]
      intro i' j' a' ho' ha'
      rw [opened_same hf]
      rcases getElem?_append_new ho' with ho' | ⟨rfl, rfl⟩
      · have hj' := opens_lt (openers_opens ho')
        rw [List.getElem?_append_left hj'] at ha'
        obtain ⟨v, b', hv, hb', e1, e2, e3⟩ := h.entry i' j' a' ho' ha'
        rw [opened_same hf] at e1
        refine ⟨v, b', ?_, ?_, e1, ?_, e3⟩
        · rw [List.getElem?_append_left (List.getElem?_eq_some_iff.mp hv).1]; exact hv
        · rw [List.getElem?_append_left (List.getElem?_eq_some_iff.mp hb').1]; exact hb'
        · rw [deposited_append (Nat.le_of_lt hj'), if_neg (unknown_ne h hk ho' ha')]; exact e2
      · simp only [List.getElem?_concat_length, Option.some.injEq] at ha'
        subst ha'
        refine ⟨newValidator d (depositEffective E d.amount), d.amount, ?_, ?_, rfl, ?_,
          fun h => absurd h hf⟩
        · rw [← h.validators]; simp
        · rw [← h.balances]; simp
        · rw [deposited_new, h.pending hf]; simp [depositedTo]
    · intro x hx sx
      rw [tv]
      rcases List.mem_append.mp hx with hx | hx
      · obtain ⟨v, hv, hvk⟩ := h.known x hx sx
        exact ⟨v, List.mem_append_left _ hv, hvk⟩
      · simp only [List.mem_singleton] at hx
        subst hx
        exact ⟨_, List.mem_append_right _ (List.mem_singleton.mpr rfl), rfl⟩
    · rw [tp, h.pending hf]; simp
  | ignored hk sg =>
    have hops : openers E (pre ++ [d]) = openers E pre := by
      rw [openers_append, if_neg (fun h => sg (opens_last.mp h).1), List.append_nil]
    refine ⟨by rw [hops]; exact h.validators, by rw [hops]; exact h.balances, ?_, ?_, h.pending,
      h.targets⟩
    · rw [hops]
      intro i' j' a' ho' ha'
      have hj' := opens_lt (openers_opens ho')
      rw [List.getElem?_append_left hj'] at ha'
      obtain ⟨v, b', hv, hb', e1, e2, e3⟩ := h.entry i' j' a' ho' ha'
      rw [opened_same hf] at e1 ⊢
      refine ⟨v, b', hv, hb', e1, ?_, e3⟩
      rw [deposited_append (Nat.le_of_lt hj'), if_neg (unknown_ne h hk ho' ha')]; exact e2
    · intro x hx sx
      rcases List.mem_append.mp hx with hx | hx
      · exact h.known x hx sx
      · simp only [List.mem_singleton] at hx
        subst hx
        exact absurd sx sg

theorem depositedTo_append {ps : List PendingBalanceDeposit} {i i' n : Nat} :
    depositedTo (ps ++ [⟨i, n⟩]) i' = depositedTo ps i' + if i = i' then n else 0 := by
  unfold depositedTo
  rw [List.filter_append, List.map_append, List.sum_append]
  congr 1
  by_cases h : i = i' <;> simp [h]

theorem opened_other {j : Nat} (hj : j < pre.length) {a : DepositData}
    (h : ¬ (d.public_key = a.public_key ∧ d.withdrawal_credentials[0] = 0x02)) :
    openedCredentials .Electra (pre ++ [d]) j a = openedCredentials .Electra pre j a := by
  unfold openedCredentials
  rw [List.drop_append_of_le_length hj, List.any_append]
  simp [h]

theorem opened_switch {j : Nat} (hj : j < pre.length) {a : DepositData}
    (h : d.public_key = a.public_key ∧ d.withdrawal_credentials[0] = 0x02) :
    openedCredentials .Electra (pre ++ [d]) j a =
      if (openedCredentials .Electra pre j a)[0] = 0x01 then
        (openedCredentials .Electra pre j a).set 0 0x02
      else openedCredentials .Electra pre j a := by
  unfold openedCredentials
  rw [List.drop_append_of_le_length hj, List.any_append]
  by_cases h1 : a.withdrawal_credentials[0] = 0x01
  · generalize (pre.drop (j + 1)).any _ = A
    cases A <;> simp [h, h1]
  · simp [h1]

/-- One deposit in electra. -/
theorem electra_entries_step {s s' : State} (h : Entries E .Electra pre s)
    (hd : ElectraDepositEffect E d s s') : Entries E .Electra (pre ++ [d]) s' := by
  cases hd with
  | topUp i v hk hv sg nsw =>
    obtain ⟨j, a, ho, ha, hka, huniq⟩ := known_entry h hk
    have hops : openers E (pre ++ [d]) = openers E pre := by
      rw [openers_append, if_neg (known_not_opens h hk), List.append_nil]
    refine ⟨by rw [hops]; exact h.validators, by rw [hops]; exact h.balances, ?_, ?_,
      fun h => absurd rfl h, ?_⟩
    · rw [hops]
      intro i' j' a' ho' ha'
      have hj' := opens_lt (openers_opens ho')
      rw [List.getElem?_append_left hj'] at ha'
      obtain ⟨v', b', hv', hb', e1, e2, e3⟩ := h.entry i' j' a' ho' ha'
      rw [deposited_append (Nat.le_of_lt hj')]
      dsimp only
      rw [depositedTo_append]
      refine ⟨v', b', hv', hb', ?_, ?_, e3⟩
      · by_cases hsw : d.public_key = a'.public_key ∧ d.withdrawal_credentials[0] = 0x02
        · have hii := huniq i' j' a' ho' ha' hsw.1.symm
          subst hii
          cases hv.symm.trans hv'
          have hvc : v.withdrawal_credentials = openedCredentials .Electra pre j' a' := by
            rw [e1]
          rw [opened_switch hj' hsw, if_neg (fun hc => nsw ⟨hsw.2, by rw [hvc]; exact hc⟩)]
          exact e1
        · rw [opened_other hj' hsw]; exact e1
      · by_cases hi : i = i'
        · subst hi
          cases ho.symm.trans ho'
          cases ha.symm.trans ha'
          rw [if_pos rfl, if_pos hka.symm]; omega
        · rw [if_neg hi, if_neg (fun hk => hi (huniq i' j' a' ho' ha' hk.symm).symm)]
          exact e2
    · intro x hx sx
      rcases List.mem_append.mp hx with hx | hx
      · exact h.known x hx sx
      · simp only [List.mem_singleton] at hx
        subst hx
        obtain ⟨⟨v, hv, hvk⟩, -⟩ := hk
        exact ⟨v, List.mem_of_getElem? hv, hvk⟩
    · intro p hp
      rcases List.mem_append.mp hp with hp | hp
      · exact h.targets p hp
      · simp only [List.mem_singleton] at hp
        subst hp
        exact (List.getElem?_eq_some_iff.mp hv).1
  | switch i b v hk hv sg sw hb =>
    obtain ⟨j, a, ho, ha, hka, huniq⟩ := known_entry h hk
    have hops : openers E (pre ++ [d]) = openers E pre := by
      rw [openers_append, if_neg (known_not_opens h hk), List.append_nil]
    have hb0 : b = 0 := by
      obtain ⟨_, b', -, hb', -, -, e3⟩ := h.entry i j a ho ha
      cases hb.symm.trans hb'
      exact e3 rfl
    subst hb0
    unfold compounding
    rw [if_neg (Nat.not_lt_zero _), if_neg (Nat.not_lt_zero _)]
    have hlt := (List.getElem?_eq_some_iff.mp hv).1
    refine ⟨by rw [hops, List.length_set]; exact h.validators, by rw [hops]; exact h.balances, ?_,
      ?_, fun h => absurd rfl h, ?_⟩
    · rw [hops]
      intro i' j' a' ho' ha'
      have hj' := opens_lt (openers_opens ho')
      rw [List.getElem?_append_left hj'] at ha'
      obtain ⟨v', b', hv', hb', e1, e2, e3⟩ := h.entry i' j' a' ho' ha'
      rw [deposited_append (Nat.le_of_lt hj')]
      dsimp only
      rw [depositedTo_append, List.getElem?_set]
      by_cases hi : i = i'
      · subst hi
        cases ho.symm.trans ho'
        cases ha.symm.trans ha'
        cases hv.symm.trans hv'
        have hvc : v.withdrawal_credentials = openedCredentials .Electra pre j a := by
          rw [e1]
        rw [if_pos rfl, if_pos rfl, if_pos hka.symm, if_pos hlt, opened_switch hj' ⟨hka.symm, sw.1⟩,
          if_pos (by rw [← hvc]; exact sw.2)]
        refine ⟨_, b', rfl, hb', ?_, by omega, e3⟩
        rw [e1]
        rfl
      · rw [if_neg hi, if_neg hi,
          if_neg (fun hk => hi (huniq i' j' a' ho' ha' hk.symm).symm),
          opened_other hj' (fun hk => hi (huniq i' j' a' ho' ha' hk.1.symm).symm)]
        exact ⟨v', b', hv', hb', e1, e2, e3⟩
    · intro x hx sx
      dsimp only
      have key : ∀ w ∈ s.validators, ∃ u ∈ s.validators.set i
          { v with withdrawal_credentials := v.withdrawal_credentials.set 0 2 },
          u.public_key = w.public_key := by
        intro w hw
        have hm : w.public_key ∈ s.validators.map (·.public_key) := List.mem_map_of_mem hw
        rw [← set_key_same
          (w := { v with withdrawal_credentials := v.withdrawal_credentials.set 0 2 }) hv rfl] at hm
        obtain ⟨u, hu, hk⟩ := List.mem_map.mp hm
        exact ⟨u, hu, hk⟩
      have : ∃ w ∈ s.validators, w.public_key = x.public_key := by
        rcases List.mem_append.mp hx with hx | hx
        · exact h.known x hx sx
        · simp only [List.mem_singleton] at hx
          subst hx
          obtain ⟨⟨v, hv, hvk⟩, -⟩ := hk
          exact ⟨v, List.mem_of_getElem? hv, hvk⟩
      obtain ⟨w, hw, hwk⟩ := this
      obtain ⟨u, hu, huk⟩ := key w hw
      exact ⟨u, hu, huk.trans hwk⟩
    · intro p hp
      rw [List.length_set]
      rcases List.mem_append.mp hp with hp | hp
      · exact h.targets p hp
      · simp only [List.mem_singleton] at hp
        subst hp
        exact hlt
  | added hk sg =>
    have hop : Opens E (pre ++ [d]) pre.length := by
      rw [opens_last]
      refine ⟨sg, fun d' hd' hkk hs => ?_⟩
      obtain ⟨v, hv, hvk⟩ := h.known d' hd' hs
      exact hk v hv (hvk.trans hkk)
    have hops : openers E (pre ++ [d]) = openers E pre ++ [pre.length] := by
      rw [openers_append, if_pos hop]
    have tv : (withValidator .Electra s (newValidator d 0) 0).validators =
        s.validators ++ [newValidator d 0] := rfl
    have tb : (withValidator .Electra s (newValidator d 0) 0).balances = s.balances ++ [0] := rfl
    have hz : depositedTo s.pending_balance_deposits s.validators.length = 0 := by
      unfold depositedTo
      rw [List.filter_eq_nil_iff.mpr]
      · rfl
      · intro p hp
        have := h.targets p hp
        simp only [decide_eq_true_eq]; omega
    refine ⟨by rw [hops, tv, List.length_append, List.length_append, h.validators]; rfl,
      by rw [hops, tb, List.length_append, List.length_append, h.balances]; rfl, ?_, ?_,
      fun h => absurd rfl h, ?_⟩
    · rw [hops, tv, tb]
      intro i' j' a' ho' ha'
      dsimp only
      rw [depositedTo_append]
      rcases getElem?_append_new ho' with ho' | ⟨rfl, rfl⟩
      · have hj' := opens_lt (openers_opens ho')
        rw [List.getElem?_append_left hj'] at ha'
        obtain ⟨v, b', hv, hb', e1, e2, e3⟩ := h.entry i' j' a' ho' ha'
        have hi' := (List.getElem?_eq_some_iff.mp hv).1
        rw [if_neg (by omega), opened_other hj' (fun hk' => unknown_ne h hk ho' ha' hk'.1)]
        refine ⟨v, b', ?_, ?_, e1, ?_, e3⟩
        · rw [List.getElem?_append_left hi']; exact hv
        · rw [List.getElem?_append_left (List.getElem?_eq_some_iff.mp hb').1]; exact hb'
        · rw [deposited_append (Nat.le_of_lt hj'), if_neg (unknown_ne h hk ho' ha')]; exact e2
      · simp only [List.getElem?_concat_length, Option.some.injEq] at ha'
        subst ha'
        refine ⟨newValidator d 0, 0, ?_, ?_, ?_, ?_, fun _ => rfl⟩
        · rw [← h.validators]; simp
        · rw [← h.balances]; simp
        · unfold openedCredentials
          rw [List.drop_eq_nil_of_le (by simp)]
          simp [newValidator]
        · rw [deposited_new, ← h.validators, hz, if_pos rfl]; omega
    · intro x hx sx
      rw [tv]
      rcases List.mem_append.mp hx with hx | hx
      · obtain ⟨v, hv, hvk⟩ := h.known x hx sx
        exact ⟨v, List.mem_append_left _ hv, hvk⟩
      · simp only [List.mem_singleton] at hx
        subst hx
        exact ⟨_, List.mem_append_right _ (List.mem_singleton.mpr rfl), rfl⟩
    · intro p hp
      rw [tv, List.length_append, List.length_singleton]
      rcases List.mem_append.mp hp with hp | hp
      · have := h.targets p hp; omega
      · simp only [List.mem_singleton] at hp
        subst hp
        dsimp only; omega

theorem entries_congr {s t : State} (h : Entries E f pre s) (h1 : t.validators = s.validators)
    (h2 : t.balances = s.balances)
    (h3 : t.pending_balance_deposits = s.pending_balance_deposits) : Entries E f pre t := by
  obtain ⟨a, b, c, d, e, g⟩ := h
  exact ⟨by rw [h1]; exact a, by rw [h2]; exact b, by rw [h1, h2, h3]; exact c,
    by rw [h1]; exact d, by rw [h3]; exact e, by rw [h1, h3]; exact g⟩

theorem genesis_deposits_entries (hE : E.effective_balance_increment ≠ 0) {ds : List Deposit} :
    ∀ {pre : List DepositData} {s s' : State}, Entries E f pre s →
      s.eth1_deposit_index = pre.length → genesis_deposits E f pre ds s = .ok () s' →
      Entries E f (pre ++ ds.map (·.data)) s' ∧
      s'.eth1_deposit_index = pre.length + ds.length ∧
      s'.eth1_data = { s.eth1_data with
        deposit_root := if ds = [] then s.eth1_data.deposit_root
          else E.deposit_data_list_root (pre ++ ds.map (·.data)) } ∧
      ∀ k d, ds[k]? = some d → E.is_valid_merkle_branch (E.deposit_data_root d.data) d.proof 33
        (pre.length + k) (E.deposit_data_list_root (pre ++ (ds.take (k + 1)).map (·.data))) = true := by
  induction ds with
  | nil =>
    intro pre s s' h hi hr
    unfold genesis_deposits at hr
    simp only [run] at hr
    obtain ⟨-, rfl⟩ := hr
    exact ⟨by simpa using h, by simpa using hi, by simp, by simp⟩
  | cons d ds ih =>
    intro pre s s' h hi hr
    unfold genesis_deposits at hr
    simp only [run] at hr
    obtain ⟨t, ht, hr⟩ := hr
    have hfr := process_deposit_frame hE ht
    obtain ⟨h1, -, h3⟩ := process_deposit_ok_iff.1 ht
    have hent : Entries E f (pre ++ [d.data]) t := by
      by_cases hf : f = .Electra
      · subst hf
        refine electra_entries_step ?_ (electra_apply_deposit_eq_ok.1 h3)
        exact entries_congr h rfl rfl rfl
      · refine entries_step hf ?_ ((apply_deposit_eq_ok hf hE).1 h3)
        exact entries_congr h rfl rfl rfl
    obtain ⟨k1, k2, k3, k4⟩ := ih hent (by rw [hfr.2.index]; simpa using hi) hr
    refine ⟨by simpa using k1, by rw [k2]; simp; omega, ?_, ?_⟩
    · rw [k3, hfr.2.eth1]
      by_cases hds : ds = []
      · subst hds; simp
      · simp [hds]
    · intro k x hx
      cases k with
      | zero =>
        simp only [List.getElem?_cons_zero, Option.some.injEq] at hx
        subst hx
        unfold DepositProven at h1
        dsimp only at h1
        rw [hi] at h1
        simpa using h1
      | succ k =>
        have := k4 k x (by simpa using hx)
        simp only [List.length_append, List.length_singleton, List.append_assoc,
          List.singleton_append] at this
        rw [List.take_succ_cons, List.map_cons, show pre.length + (k + 1) = pre.length + 1 + k by
          omega]
        exact this

/-- Crediting the whole queue. -/
theorem credit_all {ps : List PendingBalanceDeposit} : ∀ {s s' : State},
    forEach ps (fun d => increase_balance d.index d.amount) s = .ok () s' →
    ∃ bs, s' = { s with balances := bs } ∧ bs.length = s.balances.length ∧
      ∀ i : Nat, bs[i]? = s.balances[i]?.map (· + depositedTo ps i) := by
  induction ps with
  | nil =>
    intro s s' h
    rw [forEach_nil] at h
    subst h
    exact ⟨_, rfl, rfl, by simp [depositedTo]⟩
  | cons d ps ih =>
    intro s s' h
    obtain ⟨t, h1, h2⟩ := forEach_cons.1 h
    rw [increase_balance_eq_ok] at h1
    obtain ⟨b, hb, -, rfl⟩ := h1
    obtain ⟨bs, rfl, h3, h4⟩ := ih h2
    refine ⟨bs, rfl, by rw [h3, List.length_set], ?_⟩
    intro i
    rw [h4, List.getElem?_set]
    by_cases hi : d.index = i
    · subst hi
      rw [if_pos rfl, if_pos (List.getElem?_eq_some_iff.mp hb).1, hb]
      simp [depositedTo, Nat.add_assoc]
    · simp [hi, depositedTo]

/-- The entries before their effective balances are set. -/
structure Funded (E : Env) (f : Fork) (pre : List DepositData) (s : State) : Prop where
  validators : s.validators.length = (openers E pre).length
  balances : s.balances.length = (openers E pre).length
  entry : ∀ (i j : Nat) (d : DepositData), (openers E pre)[i]? = some j → pre[j]? = some d →
    ∃ v, s.validators[i]? = some v ∧ s.balances[i]? = some (deposited pre j d.public_key) ∧
      v = { newValidator d v.effective_balance with
        withdrawal_credentials := openedCredentials f pre j d }

theorem genesis_pending_funded {s s' : State} (h : Entries E f pre s)
    (hr : genesis_pending_deposits f s = .ok () s') :
    Funded E f pre s' ∧ s'.pending_balance_deposits = [] ∧
      s' = { s with balances := s'.balances, pending_balance_deposits := [] } := by
  by_cases hf : f = .Electra
  · subst hf
    unfold genesis_pending_deposits at hr
    simp only [run] at hr
    obtain ⟨bs, rfl, h3, h4⟩ := credit_all hr
    refine ⟨⟨h.validators, h3.trans h.balances, ?_⟩, rfl, rfl⟩
    intro i j d ho hd
    obtain ⟨v, b, hv, hb, e1, e2, -⟩ := h.entry i j d ho hd
    refine ⟨v, hv, ?_, e1⟩
    dsimp only
    rw [h4]
    dsimp only
    rw [hb, ← e2]
    rfl
  · have hp := h.pending hf
    have : s' = s := by
      unfold genesis_pending_deposits at hr
      cases f <;> first | exact absurd rfl hf | (simp only [run] at hr; exact hr.2.symm)
    subst this
    refine ⟨⟨h.validators, h.balances, ?_⟩, hp, by rw [← hp]⟩
    intro i j d ho hd
    obtain ⟨v, b, hv, hb, e1, e2, -⟩ := h.entry i j d ho hd
    refine ⟨v, hv, ?_, e1⟩
    rw [hb, ← e2, hp]
    rfl

/-- The entry `v` with balance `b` once its effective balance is set. -/
def activated (E : Env) (v : Validator) (b : Nat) : Validator :=
  if depositEffective E b = E.max_effective_balance then
    { v with
      effective_balance := depositEffective E b
      activation_eligibility_epoch := 0
      activation_epoch := 0 }
  else { v with effective_balance := depositEffective E b }

theorem activate_eq_ok (hE : E.effective_balance_increment ≠ 0) {i : Nat} {s s' : State} :
    genesis_activate E i s = .ok () s' ↔ ∃ v b, s.validators[i]? = some v ∧
      s.balances[i]? = some b ∧ s' = { s with validators := s.validators.set i (activated E v b) } := by
  simp only [genesis_activate, run, GENESIS_EPOCH]
  unfold activated depositEffective
  constructor
  · rintro ⟨b, hb, _, ⟨rfl, -⟩, _, ⟨rfl, -⟩, v, hv, rfl⟩
    exact ⟨v, b, hv, hb, rfl⟩
  · rintro ⟨v, b, hv, hb, rfl⟩
    exact ⟨b, hb, _, ⟨rfl, hE⟩, _, ⟨rfl, Nat.mod_le _ _⟩, v, hv, rfl⟩

theorem activate_all (hE : E.effective_balance_increment ≠ 0) {s s' : State}
    (h : Funded E f pre s)
    (hr : forEach (List.range s.validators.length) (genesis_activate E) s = .ok () s') :
    GenesisRegistry E f pre s' ∧ s' = { s with validators := s'.validators } := by
  obtain ⟨m, rfl, h1, h2, h3⟩ := forEach_pointwise (get := (·.validators))
    (put := fun s l => { s with validators := l })
    (P := fun i o => ∀ v b, s.validators[i]? = some v → s.balances[i]? = some b → o = some (activated E v b))
    (fun _ => rfl) List.nodup_range (by
      intro i hi l t' hl hli ht
      rw [activate_eq_ok hE] at ht
      obtain ⟨v, b, hv, hb, rfl⟩ := ht
      refine ⟨_, rfl, List.length_set, fun j hj => List.getElem?_set_ne (Ne.symm hj), ?_⟩
      intro v' b' hv' hb'
      dsimp only at hv hli hb
      rw [hli] at hv
      cases hv'.symm.trans hv
      cases hb'.symm.trans hb
      rw [List.getElem?_set_self]
      rw [hl]
      exact (List.getElem?_eq_some_iff.mp hv').1) hr
  refine ⟨⟨h1.trans h.validators, h.balances, ?_⟩, rfl⟩
  intro i j d ho hd
  obtain ⟨v, hv, hb, e1⟩ := h.entry i j d ho hd
  refine ⟨?_, hb⟩
  dsimp only
  rw [h2 i (List.mem_range.mpr (List.getElem?_eq_some_iff.mp hv).1) v _ hv hb, e1]
  unfold genesisValidator activated
  dsimp only [newValidator]
  split <;> rfl

theorem genesis_deposits_mod {ds : List Deposit} {pre : List DepositData} :
    Modifies [.validators, .balances, .previous_epoch_participation, .current_epoch_participation,
      .inactivity_scores, .pending_balance_deposits, .eth1_data, .eth1_deposit_index]
      (genesis_deposits E f pre ds) := by
  induction ds generalizing pre with
  | nil => unfold genesis_deposits; mods
  | cons d ds ih => unfold genesis_deposits; mods [ih, deposit_mod]

theorem genesis_fill_mod {ds : List Deposit} :
    Modifies [.validators, .balances, .previous_epoch_participation, .current_epoch_participation,
      .inactivity_scores, .pending_balance_deposits, .eth1_data, .eth1_deposit_index,
      .genesis_validators_root, .current_sync_committee, .next_sync_committee]
      (genesis_fill E f ds) := by
  unfold genesis_fill genesis_pending_deposits genesis_activate genesis_sync_committees
  mods [genesis_deposits_mod, increase_mod]

theorem genesis_fill_ok (hE : E.effective_balance_increment ≠ 0) {ds : List Deposit} {s s' : State}
    (h : Entries E f [] s) (hi : s.eth1_deposit_index = 0)
    (hr : genesis_fill E f ds s = .ok () s') :
    GenesisRegistry E f (ds.map (·.data)) s' ∧
      s'.pending_balance_deposits = [] ∧
      s'.eth1_deposit_index = ds.length ∧
      s'.genesis_validators_root = E.validators_root s'.validators ∧
      s'.eth1_data = { s.eth1_data with
        deposit_root := if ds = [] then s.eth1_data.deposit_root
          else E.deposit_data_list_root (ds.map (·.data)) } ∧
      ∀ k d, ds[k]? = some d → E.is_valid_merkle_branch (E.deposit_data_root d.data) d.proof 33
        k (E.deposit_data_list_root ((ds.take (k + 1)).map (·.data))) = true := by
  unfold genesis_fill at hr
  rw [M_bind_unit_eq_ok] at hr
  obtain ⟨t1, h1, hr⟩ := hr
  rw [M_bind_unit_eq_ok] at hr
  obtain ⟨t2, h2, hr⟩ := hr
  rw [M_get_bind_eq_ok, M_bind_unit_eq_ok] at hr
  obtain ⟨t3, h3, hr⟩ := hr
  rw [M_bind_unit_eq_ok] at hr
  obtain ⟨t4, h4, hr⟩ := hr
  obtain ⟨k1, k2, k3, k4⟩ := genesis_deposits_entries hE h hi h1
  obtain ⟨l1, l2, l3⟩ := genesis_pending_funded k1 h2
  obtain ⟨m1, m2⟩ := activate_all hE l1 h3
  simp only [run] at h4
  have hs : s'.validators = t4.validators ∧ s'.balances = t4.balances ∧
      s'.pending_balance_deposits = t4.pending_balance_deposits ∧
      s'.eth1_deposit_index = t4.eth1_deposit_index ∧
      s'.genesis_validators_root = t4.genesis_validators_root ∧ s'.eth1_data = t4.eth1_data := by
    have : Modifies [.current_sync_committee, .next_sync_committee]
        (genesis_sync_committees E f) := by
      unfold genesis_sync_committees; mods
    have hm := this.ok hr
    exact ⟨hm .validators (by decide), hm .balances (by decide),
      hm .pending_balance_deposits (by decide), hm .eth1_deposit_index (by decide),
      hm .genesis_validators_root (by decide), hm .eth1_data (by decide)⟩
  obtain ⟨n1, n2, n3, n4, n5, n6⟩ := hs
  subst h4
  dsimp only at n1 n2 n3 n4 n5 n6
  have e1 : t3.eth1_deposit_index = t1.eth1_deposit_index := by rw [m2, l3]
  have e2 : t3.eth1_data = t1.eth1_data := by rw [m2, l3]
  have e3 : t3.pending_balance_deposits = [] := by rw [m2, l2]
  refine ⟨⟨by rw [n1]; simpa using m1.validators, by rw [n2]; simpa using m1.balances, ?_⟩,
    n3.trans e3, ?_, by rw [n5, n1], ?_, ?_⟩
  · intro i j d ho hd
    rw [n1, n2]
    exact m1.entry i j d (by simpa using ho) (by simpa using hd)
  · rw [n4, e1, k2]; simp
  · rw [n6, e2, k3]; simp
  · simpa using k4

/-- Every signed deposit has an entry for its key. -/
theorem signed_opened {ds : List DepositData} : ∀ (n : Nat) {d : DepositData}, ds[n]? = some d →
    DepositSigned E d → ∃ j a, Opens E ds j ∧ ds[j]? = some a ∧ a.public_key = d.public_key := by
  intro n
  induction n using Nat.strongRecOn with
  | _ n ih =>
    intro d hd sg
    by_cases ho : Opens E ds n
    · exact ⟨n, d, ho, hd, rfl⟩
    · have : ∃ d' ∈ ds.take n, d'.public_key = d.public_key ∧ DepositSigned E d' := by
        apply Classical.byContradiction
        intro hn
        exact ho ⟨d, hd, sg, fun d' hd' hk hs => hn ⟨d', hd', hk, hs⟩⟩
      obtain ⟨d', hd', hk, hs⟩ := this
      obtain ⟨m, hm, hmd⟩ := List.mem_iff_getElem.mp hd'
      have hmn : m < n := by simp at hm; omega
      have hm' : ds[m]? = some d' := by
        rw [List.getElem_take] at hmd
        rw [← hmd]
        exact List.getElem?_eq_getElem _
      obtain ⟨j, a, h1, h2, h3⟩ := ih m hmn hm' hs
      exact ⟨j, a, h1, h2, h3.trans hk⟩

theorem opens_mem {ds : List DepositData} {j : Nat} (h : Opens E ds j) :
    ∃ i : Nat, (openers E ds)[i]? = some j := by
  have : j ∈ openers E ds := by
    unfold openers
    rw [List.mem_filter]
    exact ⟨List.mem_range.mpr (opens_lt h), by simpa using h⟩
  obtain ⟨i, hi, hij⟩ := List.mem_iff_getElem.mp this
  exact ⟨i, by rw [List.getElem?_eq_getElem hi, hij]⟩

theorem electra_genesis_signed {ds : List Deposit} : ∀ {pre : List DepositData} {s s' : State},
    genesis_deposits E .Electra pre ds s = .ok () s' → ∀ d ∈ ds, DepositSigned E d.data := by
  induction ds with
  | nil => intro _ _ _ _ d hd; cases hd
  | cons d ds ih =>
    intro pre s s' h x hx
    unfold genesis_deposits at h
    simp only [run] at h
    obtain ⟨t, ht, h⟩ := h
    obtain ⟨-, -, h3⟩ := process_deposit_ok_iff.1 ht
    rcases List.mem_cons.mp hx with rfl | hx
    · cases electra_apply_deposit_eq_ok.1 h3 <;> assumption
    · exact ih h x hx

/-! ## Genesis succeeds -/

/-- The sum of all deposits. -/
def depositTotal (ds : List DepositData) : Nat := (ds.map (·.amount)).sum

theorem deposited_le {ds : List DepositData} {j : Nat} {k : PublicKey} :
    deposited ds j k ≤ depositTotal ds := by
  unfold deposited depositTotal
  have h1 : (((ds.drop j).filter (·.public_key = k)).map (·.amount)).Sublist (ds.map (·.amount)) :=
    (List.filter_sublist.trans (List.drop_sublist j ds)).map _
  generalize ds.map (·.amount) = l at h1
  generalize ((ds.drop j).filter (·.public_key = k)).map (·.amount) = l' at h1
  induction h1 with
  | slnil => exact Nat.le_refl _
  | cons a _ ih => rw [List.sum_cons]; omega
  | cons_cons a _ ih => rw [List.sum_cons, List.sum_cons]; omega

theorem deposit_effect_exists {s : State} (h : Entries E f pre s)
    (ht : depositTotal (pre ++ [d]) < 2 ^ 64) : ∃ t, DepositEffect E f d s t := by
  cases hk : s.validators.findIdx? fun v => v.public_key == d.public_key with
  | some i =>
    have hk := findKey_some.1 hk
    obtain ⟨j, a, ho, ha, hka, -⟩ := known_entry h hk
    obtain ⟨v, b, -, hb, -, e2, -⟩ := h.entry i j a ho ha
    refine ⟨_, .topUp i b hk hb ?_⟩
    have h1 : deposited (pre ++ [d]) j a.public_key ≤ depositTotal (pre ++ [d]) := deposited_le
    rw [deposited_append (Nat.le_of_lt (opens_lt (openers_opens ho))), if_pos hka.symm] at h1
    omega
  | none =>
    have hk := findKey_none.1 hk
    by_cases sg : DepositSigned E d
    · exact ⟨_, .added hk sg⟩
    · exact ⟨_, .ignored hk sg⟩

theorem genesis_deposits_progress (hf : f ≠ .Electra) (hE : E.effective_balance_increment ≠ 0)
    {ds : List Deposit} : ∀ {pre : List DepositData} {s : State}, Entries E f pre s →
      s.eth1_deposit_index = pre.length → pre.length + ds.length < 2 ^ 64 →
      depositTotal (pre ++ ds.map (·.data)) < 2 ^ 64 →
      (∀ k d, ds[k]? = some d → E.is_valid_merkle_branch (E.deposit_data_root d.data) d.proof 33
        (pre.length + k)
        (E.deposit_data_list_root (pre ++ (ds.take (k + 1)).map (·.data))) = true) →
      ∃ s', genesis_deposits E f pre ds s = .ok () s' := by
  induction ds with
  | nil => intro pre s _ _ _ _ _; exact ⟨s, rfl⟩
  | cons d ds ih =>
    intro pre s h hi hn ht hp
    unfold genesis_deposits
    simp only [run]
    generalize hs0 : ({ s with eth1_data :=
      { s.eth1_data with deposit_root := E.deposit_data_list_root (pre ++ [d.data]) } } : State) = s0
    have hent0 : Entries E f pre { s0 with eth1_deposit_index := s0.eth1_deposit_index + 1 } := by
      subst hs0
      exact entries_congr h rfl rfl rfl
    have hi0 : s0.eth1_deposit_index = pre.length := by subst hs0; exact hi
    have h1 : depositTotal (pre ++ [d.data]) ≤ depositTotal (pre ++ (d :: ds).map (·.data)) := by
      unfold depositTotal
      simp only [List.map_append, List.sum_append, List.map_cons, List.sum_cons, List.map_nil,
        List.sum_nil]
      omega
    obtain ⟨t, hd⟩ := deposit_effect_exists (d := d.data) hent0 (by omega)
    have hpd : process_deposit E f d s0 = .ok () t := by
      rw [process_deposit_ok_iff, apply_deposit_eq_ok hf hE]
      refine ⟨?_, ?_, hd⟩
      · have := hp 0 d rfl
        unfold DepositProven
        rw [hi0]
        subst hs0
        simpa using this
      · rw [hi0]
        simp only [List.length_cons] at hn
        unfold U64_BOUND
        omega
    have hfr := process_deposit_frame hE hpd
    have hent : Entries E f (pre ++ [d.data]) t := entries_step hf hent0 hd
    obtain ⟨s', hs'⟩ := ih hent (by rw [hfr.2.index]; simp [hi0])
      (by simp only [List.length_append, List.length_cons, List.length_nil] at hn ⊢; omega)
      (by simpa using ht) (by
        intro k x hx
        have := hp (k + 1) x (by simpa using hx)
        simpa [Nat.add_assoc, Nat.add_comm 1 k] using this)
    exact ⟨s', t, hpd, hs'⟩

theorem activate_progress (hE : E.effective_balance_increment ≠ 0) : ∀ {xs : List Nat} {s : State},
    (∀ i ∈ xs, i < s.validators.length ∧ i < s.balances.length) →
    ∃ s', forEach xs (genesis_activate E) s = .ok () s' := by
  intro xs
  induction xs with
  | nil => intro s _; exact ⟨s, rfl⟩
  | cons i xs ih =>
    intro s h
    have hi := h i (List.mem_cons_self)
    generalize hl : s.validators.set i (activated E s.validators[i] s.balances[i]) = l
    have h1 : genesis_activate E i s = .ok () { s with validators := l } :=
      (activate_eq_ok hE).mpr ⟨_, _, List.getElem?_eq_getElem hi.1,
        List.getElem?_eq_getElem hi.2, by rw [← hl]⟩
    obtain ⟨s', h2⟩ := ih (s := { s with validators := l }) (by
        intro j hj
        rw [← hl, List.length_set]
        exact h j (List.mem_cons_of_mem _ hj))
    exact ⟨s', forEach_cons.2 ⟨_, h1, h2⟩⟩

end Verif
