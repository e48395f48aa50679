import Verif.Proofs.Operations
import Verif.Spec.Deposits

namespace Verif
open Spec

theorem findKey_some {s : State} {k : PublicKey} {i : Nat} :
    (s.validators.findIdx? fun v => v.public_key == k) = some i ↔ FirstWithKey s k i := by
  rw [List.findIdx?_eq_some_iff_getElem]
  constructor
  · rintro ⟨h, h1, h2⟩
    refine ⟨⟨s.validators[i], by simp [h], by simpa using h1⟩, fun j hj v hv => ?_⟩
    obtain ⟨hl, rfl⟩ := List.getElem?_eq_some_iff.1 hv
    simpa using h2 j hj
  · rintro ⟨⟨v, hv, hk⟩, h2⟩
    obtain ⟨hl, rfl⟩ := List.getElem?_eq_some_iff.1 hv
    refine ⟨hl, by simpa using hk, fun j hj => ?_⟩
    simpa using h2 j hj _ (List.getElem?_eq_getElem (by omega))

theorem findKey_none {s : State} {k : PublicKey} :
    (s.validators.findIdx? fun v => v.public_key == k) = none ↔ UnknownKey s k := by
  rw [List.findIdx?_eq_none_iff]
  simp [UnknownKey]

theorem firstWithKey_unique {s : State} {k : PublicKey} {i j : Nat} (hi : FirstWithKey s k i)
    (hj : FirstWithKey s k j) : i = j := by
  have h1 := findKey_some.2 hi
  rw [findKey_some.2 hj] at h1
  exact (Option.some.inj h1).symm

theorem not_both {s : State} {k : PublicKey} {i : Nat} (hi : FirstWithKey s k i)
    (hu : UnknownKey s k) : False := by
  obtain ⟨⟨v, hv, hk⟩, -⟩ := hi
  exact hu v (List.mem_of_getElem? hv) hk

theorem deposit_signature_iff {E : Env} {d : DepositData} :
    deposit_signature_ok E d.public_key d.withdrawal_credentials d.amount d.signature = true ↔
      DepositSigned E d := Iff.rfl

theorem add_validator_eq_ok {E : Env} {f : Fork} (hf : f ≠ .Electra)
    (hE : E.effective_balance_increment ≠ 0) {d : DepositData} {s s' : State} :
    add_validator_to_registry E f d.public_key d.withdrawal_credentials d.amount s = .ok () s' ↔
      s' = withValidator f s (newValidator d (depositEffective E d.amount)) d.amount := by
  have hv : get_validator_from_deposit E f d.public_key d.withdrawal_credentials d.amount =
      .ok (newValidator d (depositEffective E d.amount)) := by
    unfold get_validator_from_deposit depositEffective newValidator
    have hr : d.amount % E.effective_balance_increment ≤ d.amount := Nat.mod_le _ _
    cases f <;> first | exact absurd rfl hf | simp [mod_ok hE, sub_ok hr]
  unfold add_validator_to_registry
  simp only [hv, run]
  constructor
  · rintro ⟨v, rfl, h⟩
    cases f <;> first | exact absurd rfl hf | (simp only [run] at h; exact h.symm)
  · rintro rfl
    refine ⟨_, rfl, ?_⟩
    cases f <;> first | exact absurd rfl hf | rfl

theorem apply_deposit_eq_ok {E : Env} {f : Fork} (hf : f ≠ .Electra)
    (hE : E.effective_balance_increment ≠ 0) {d : DepositData} {s s' : State} :
    apply_deposit E f d.public_key d.withdrawal_credentials d.amount d.signature s = .ok () s' ↔
      DepositEffect E f d s s' := by
  have : apply_deposit E f d.public_key d.withdrawal_credentials d.amount d.signature =
      Phase0.apply_deposit E f d.public_key d.withdrawal_credentials d.amount d.signature := by
    cases f <;> first | exact absurd rfl hf | rfl
  rw [this, Phase0.apply_deposit, M_get_bind_eq_ok]
  cases hk : s.validators.findIdx? fun v => v.public_key == d.public_key with
  | some i =>
    have hk := findKey_some.1 hk
    simp only [increase_balance_eq_ok]
    constructor
    · rintro ⟨b, h1, h2, rfl⟩; exact .topUp i b hk h1 h2
    · intro h
      cases h with
      | topUp j b hj h1 h2 => cases firstWithKey_unique hk hj; exact ⟨b, h1, h2, rfl⟩
      | added h => exact (not_both hk h).elim
      | ignored h => exact (not_both hk h).elim
  | none =>
    have hk := findKey_none.1 hk
    simp only [run, add_validator_eq_ok hf hE, deposit_signature_iff, true_and]
    constructor
    · rintro (⟨h1, rfl⟩ | ⟨h1, rfl⟩)
      · exact .added hk h1
      · exact .ignored hk h1
    · intro h
      cases h with
      | topUp j b hj h1 h2 => exact (not_both hj hk).elim
      | added h h' => exact Or.inl ⟨h', rfl⟩
      | ignored h h' => exact Or.inr ⟨h', rfl⟩

theorem switch_eq_ok {E : Env} {i : Nat} {s s' : State} {v : Validator}
    (hv : s.validators[i]? = some v) (h1 : v.withdrawal_credentials[0] = 1) :
    Electra.switch_to_compounding_validator E i s = .ok () s' ↔
      ∃ b, s.balances[i]? = some b ∧ s' = compounding E s i b v := by
  have hc : has_eth1_withdrawal_credential v = true := by
    exact beq_iff_eq.2 h1
  simp only [Electra.switch_to_compounding_validator, Electra.queue_excess_active_balance, run, hv,
    Option.some.injEq]
  constructor
  · rintro ⟨_, rfl, ⟨-, _, rfl, b, hb, ⟨hgt, x, ⟨rfl, -⟩, rfl⟩ | ⟨hgt, -, rfl⟩⟩ | ⟨h, -⟩⟩
    · refine ⟨b, hb, ?_⟩
      simp only [compounding]; rw [if_pos hgt, if_pos hgt]; rfl
    · refine ⟨b, hb, ?_⟩
      simp only [compounding]; rw [if_neg hgt, if_neg hgt]; rfl
    · exact absurd hc h
  · rintro ⟨b, hb, rfl⟩
    refine ⟨_, rfl, Or.inl ⟨hc, _, rfl, b, hb, ?_⟩⟩
    by_cases hgt : b > E.min_activation_balance
    · refine Or.inl ⟨hgt, _, ⟨rfl, by omega⟩, ?_⟩
      simp only [compounding]; rw [if_pos hgt, if_pos hgt]; rfl
    · refine Or.inr ⟨hgt, trivial, ?_⟩
      simp only [compounding]; rw [if_neg hgt, if_neg hgt]; rfl

theorem electra_apply_deposit_eq_ok {E : Env} {d : DepositData} {s s' : State} :
    apply_deposit E .Electra d.public_key d.withdrawal_credentials d.amount d.signature s =
      .ok () s' ↔ ElectraDepositEffect E d s s' := by
  show Electra.apply_deposit E _ _ _ _ s = _ ↔ _
  rw [Electra.apply_deposit, M_get_bind_eq_ok]
  have hsw : ∀ v : Validator, (Electra.is_compounding_withdrawal_credential d.withdrawal_credentials
      && has_eth1_withdrawal_credential v) = true ↔
      (d.withdrawal_credentials[0] = 2 ∧ v.withdrawal_credentials[0] = 1) := fun v => by
    rw [Bool.and_eq_true]
    exact and_congr (beq_iff_eq) beq_iff_eq
  have hs : (!deposit_signature_ok E d.public_key d.withdrawal_credentials d.amount
      d.signature) = false ↔ DepositSigned E d := by
    rw [Bool.not_eq_false']; exact deposit_signature_iff
  cases hk : s.validators.findIdx? fun v => v.public_key == d.public_key with
  | some i =>
    have hk := findKey_some.1 hk
    simp only [run, hs, hsw, true_and]
    constructor
    · rintro ⟨v, hv, hsig, ⟨h1, h2⟩ | ⟨h1, rfl⟩⟩
      · rw [switch_eq_ok (v := v) (by exact hv) h1.2] at h2
        obtain ⟨b, hb, rfl⟩ := h2
        exact .switch i b v hk hv hsig h1 hb
      · exact .topUp i v hk hv hsig h1
    · intro h
      cases h with
      | topUp j v hj h1 h2 h3 => cases firstWithKey_unique hk hj; exact ⟨v, h1, h2, Or.inr ⟨h3, rfl⟩⟩
      | switch j b v hj h1 h2 h3 h4 =>
        cases firstWithKey_unique hk hj
        refine ⟨v, h1, h2, Or.inl ⟨h3, ?_⟩⟩
        rw [switch_eq_ok (v := v) (by exact h1) h3.2]
        exact ⟨b, h4, rfl⟩
      | added h => exact (not_both hk h).elim
  | none =>
    have hk := findKey_none.1 hk
    simp only [run, hs]
    have ha : ∀ s', add_validator_to_registry E .Electra d.public_key d.withdrawal_credentials
        d.amount s = .ok () s' ↔ s' = { withValidator .Electra s (newValidator d 0) 0 with
        pending_balance_deposits :=
          s.pending_balance_deposits ++ [⟨s.validators.length, d.amount⟩] } := by
      intro s'
      show EStateM.Result.ok () _ = _ ↔ _
      rw [EStateM.Result.ok.injEq]
      exact ⟨fun h => h.2.symm, fun h => ⟨rfl, h.symm⟩⟩
    rw [ha]
    constructor
    · rintro ⟨h1, rfl⟩; exact .added hk h1
    · intro h
      cases h with
      | topUp j v hj => exact (not_both hj hk).elim
      | switch j b v hj => exact (not_both hj hk).elim
      | added h1 h2 => exact ⟨h2, rfl⟩

theorem process_deposit_ok_iff {E : Env} {f : Fork} {d : Deposit} {s s' : State} :
    process_deposit E f d s = .ok () s' ↔
      DepositProven E s d ∧ s.eth1_deposit_index + 1 < U64_BOUND ∧
      apply_deposit E f d.data.public_key d.data.withdrawal_credentials d.data.amount
        d.data.signature { s with eth1_deposit_index := s.eth1_deposit_index + 1 } = .ok () s' := by
  simp only [process_deposit, run, DEPOSIT_CONTRACT_TREE_DEPTH, DepositProven,
    Bool.not_eq_false']
  constructor
  · rintro ⟨h1, _, ⟨rfl, h2⟩, h3⟩; exact ⟨h1, h2, h3⟩
  · rintro ⟨h1, h2, h3⟩; exact ⟨h1, _, ⟨rfl, h2⟩, h3⟩

/-! ## Facts preserved by one deposit -/

/-- What every deposit leaves as it was, and how it may extend the registry. -/
structure DepositFrame (s s' : State) : Prop where
  index : s'.eth1_deposit_index = s.eth1_deposit_index
  eth1 : s'.eth1_data = s.eth1_data
  keys : ∃ l, s'.validators.map (·.public_key) = s.validators.map (·.public_key) ++ l
  distinct : DistinctKeys s → DistinctKeys s'

theorem set_key_same {l : List Validator} {i : Nat} {v w : Validator} (h : l[i]? = some v)
    (hk : w.public_key = v.public_key) :
    (l.set i w).map (·.public_key) = l.map (·.public_key) := by
  rw [List.map_set, hk]
  exact set_self (by rw [List.getElem?_map, h]; rfl)

theorem withValidator_frame {f : Fork} {s : State} {d : DepositData} {e b : Nat}
    (h : UnknownKey s d.public_key) :
    DepositFrame s (withValidator f s (newValidator d e) b) := by
  have hv : (withValidator f s (newValidator d e) b).validators =
      s.validators ++ [newValidator d e] := by
    unfold withValidator; split <;> rfl
  refine ⟨by unfold withValidator; split <;> rfl, by unfold withValidator; split <;> rfl,
    ⟨[d.public_key], by rw [hv]; simp [newValidator]⟩, fun hd => ?_⟩
  unfold DistinctKeys at *
  rw [hv, List.map_append, List.nodup_append]
  refine ⟨hd, by simp, ?_⟩
  rintro a ha b' hb rfl
  simp only [newValidator, List.map_cons, List.map_nil, List.mem_singleton] at hb
  subst hb
  obtain ⟨v, hv, hk⟩ := List.mem_map.1 ha
  exact h v hv hk

theorem depositEffect_frame {E : Env} {f : Fork} {d : DepositData} {s s' : State}
    (h : DepositEffect E f d s s') : DepositFrame s s' := by
  cases h with
  | topUp => exact ⟨rfl, rfl, ⟨[], by simp⟩, id⟩
  | added h _ => exact withValidator_frame h
  | ignored => exact ⟨rfl, rfl, ⟨[], by simp⟩, id⟩

theorem electraDepositEffect_frame {E : Env} {d : DepositData} {s s' : State}
    (h : ElectraDepositEffect E d s s') : DepositFrame s s' := by
  cases h with
  | topUp => exact ⟨rfl, rfl, ⟨[], by simp⟩, id⟩
  | switch i b v h1 h2 =>
    have := set_key_same 
      (w := { v with withdrawal_credentials := v.withdrawal_credentials.set 0 2 }) h2 rfl
    refine ⟨rfl, rfl, ⟨[], ?_⟩, fun h => ?_⟩
    · rw [List.append_nil]; exact this
    · unfold DistinctKeys at *
      exact (congrArg List.Nodup this).mpr h
  | added h _ =>
    have := withValidator_frame (f := .Electra) (e := 0) (b := 0) h
    exact ⟨this.index, this.eth1, this.keys, this.distinct⟩

theorem process_deposit_frame {E : Env} {f : Fork} (hE : E.effective_balance_increment ≠ 0)
    {d : Deposit} {s s' : State}
    (h : process_deposit E f d s = .ok () s') :
    DepositProven E s d ∧
      DepositFrame { s with eth1_deposit_index := s.eth1_deposit_index + 1 } s' := by
  obtain ⟨h1, -, h3⟩ := process_deposit_ok_iff.1 h
  by_cases hf : f = .Electra
  · subst hf; exact ⟨h1, electraDepositEffect_frame (electra_apply_deposit_eq_ok.1 h3)⟩
  · exact ⟨h1, depositEffect_frame ((apply_deposit_eq_ok hf hE).1 h3)⟩

theorem forEach_cons {α : Type} {x : α} {xs : List α} {body : α → M Unit} {s s' : State} :
    forEach (x :: xs) body s = .ok () s' ↔
      ∃ t, body x s = .ok () t ∧ forEach xs body t = .ok () s' := by
  show (body x >>= fun _ => forEach xs body) s = _ ↔ _
  exact M_bind_unit_eq_ok

theorem forEach_nil {α : Type} {body : α → M Unit} {s s' : State} :
    forEach [] body s = .ok () s' ↔ s' = s := by
  show (pure () : M Unit) s = _ ↔ _
  simp only [run, true_and]; exact eq_comm

theorem process_deposits_frame {E : Env} {f : Fork} (hE : E.effective_balance_increment ≠ 0)
    {ds : List Deposit} {s s' : State} (h : forEach ds (process_deposit E f) s = .ok () s') :
    (∀ k d, ds[k]? = some d →
      DepositProven E { s with eth1_deposit_index := s.eth1_deposit_index + k } d) ∧
    DepositFrame { s with eth1_deposit_index := s.eth1_deposit_index + ds.length } s' := by
  induction ds generalizing s with
  | nil => rw [forEach_nil] at h; subst h; exact ⟨by simp, ⟨rfl, rfl, ⟨[], by simp⟩, id⟩⟩
  | cons d ds ih =>
    obtain ⟨t, h1, h2⟩ := forEach_cons.1 h
    obtain ⟨hp, hf⟩ := process_deposit_frame hE h1
    obtain ⟨ihp, ihf⟩ := ih h2
    constructor
    · intro k e hk
      cases k with
      | zero => cases hk; exact hp
      | succ k =>
        have := ihp k e hk
        unfold DepositProven at *
        simp only [hf.eth1, hf.index] at this ⊢
        rw [show s.eth1_deposit_index + (k + 1) = s.eth1_deposit_index + 1 + k by omega]
        exact this
    · refine ⟨?_, ?_, ?_, fun hd => ihf.distinct (hf.distinct hd)⟩
      · rw [ihf.index]; simp only [hf.index, List.length_cons]; omega
      · rw [ihf.eth1]; exact hf.eth1
      · obtain ⟨l, hl⟩ := hf.keys
        obtain ⟨m, hm⟩ := ihf.keys
        exact ⟨l ++ m, by rw [hm]; simp only at hl ⊢; rw [hl]; simp⟩

end Verif
