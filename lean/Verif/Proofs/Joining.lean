import Verif.Proofs.Turn
import Verif.Props.Turn
import Verif.Props.Parts

/-! # From a deposit to activation -/

namespace Verif

open Spec Props

/-- A validator that is not on the activation queue and has enough stake to join it. -/
def Newcomer (E : Env) (w : Validator) : Prop :=
  w.activation_eligibility_epoch = FAR_FUTURE_EPOCH ∧ w.activation_epoch = FAR_FUTURE_EPOCH ∧
    w.effective_balance = E.max_effective_balance

/-- Whoever has the key is such a one. -/
def NewKey (E : Env) (key : PublicKey) (t : State) : Prop :=
  ∀ (i : Nat) w, t.validators[i]? = some w → w.public_key = key → Newcomer E w

/-- Validator `i` has the key and is such a one. -/
def Enrolled (E : Env) (key : PublicKey) (i : Nat) (t : State) : Prop :=
  ∃ w, t.validators[i]? = some w ∧ w.public_key = key ∧ Newcomer E w

section

variable {E : Env} {f : Fork} {s t u : State} {key : PublicKey} {i : Nat}

theorem enrolled_step (h1 : Still t u) (h2 : Weights t u) (h3 : Reg t u) (h : Enrolled E key i t) :
    Enrolled E key i u := by
  obtain ⟨v, hv, hk, n1, n2, n3⟩ := h
  obtain ⟨w, hw, e1, e2⟩ := h1.1 i v hv
  obtain ⟨w', hw', e3⟩ := h2.2 i v hv
  obtain ⟨w'', hw'', e4⟩ := h3.1 i v hv
  rw [hw] at hw' hw''; cases hw'; cases hw''
  exact ⟨w, hw, e4.key.trans hk, e1.trans n1, e2.trans n2, e3.trans n3⟩

theorem newKey_deposit (hE : SaneConfig E) (hB : SaneBalances E) (hf : f ≠ .Electra) {d : Deposit}
    (hd : d.data.public_key = key → E.max_effective_balance ≤ d.data.amount)
    (h : NewKey E key t) (hm : process_deposit E f d t = .ok () u) : NewKey E key u := by
  obtain ⟨-, -, hm⟩ := process_deposit_ok_iff.1 hm
  have hm := (apply_deposit_eq_ok hf (Nat.pos_iff_ne_zero.1 hE.effective_balance_increment)).1 hm
  cases hm with
  | topUp j b known balance fits => exact h
  | ignored new unsigned => exact h
  | added new signed =>
    have : (withValidator f { t with eth1_deposit_index := t.eth1_deposit_index + 1 }
        (newValidator d.data (depositEffective E d.data.amount)) d.data.amount).validators =
        t.validators ++ [newValidator d.data (depositEffective E d.data.amount)] := by
      unfold withValidator; split <;> rfl
    intro j w hw hk
    rw [this] at hw
    by_cases hj : j < t.validators.length
    · rw [List.getElem?_append_left hj] at hw
      exact h j w hw hk
    · rw [List.getElem?_append_right (by omega)] at hw
      have : w = newValidator d.data (depositEffective E d.data.amount) := by
        rcases Nat.eq_zero_or_pos (j - t.validators.length) with h0 | h0
        · rw [h0] at hw; simpa using hw.symm
        · rw [List.getElem?_eq_none (by simp; omega)] at hw; cases hw
      subst this
      refine ⟨rfl, rfl, ?_⟩
      show depositEffective E d.data.amount = _
      have hle := hd hk
      have hpos := hE.effective_balance_increment
      obtain ⟨q, hq⟩ := hB.max
      unfold depositEffective
      refine Nat.min_eq_right ?_
      have hdiv : q ≤ d.data.amount / E.effective_balance_increment := by
        rw [Nat.le_div_iff_mul_le hpos, Nat.mul_comm, ← hq]; exact hle
      have := Nat.div_add_mod d.data.amount E.effective_balance_increment
      have := Nat.mul_le_mul_left E.effective_balance_increment hdiv
      omega

/-- A block with a signed deposit for a new key enrols a validator with the key. -/
theorem block_enrols (hE : SaneConfig E) (hB : SaneBalances E) (hmax : 0 < E.max_deposits)
    (hf : f ≠ .Electra) {b : BeaconBlock} (h : process_block E f b s = .ok () u) {d : Deposit}
    (hd : d ∈ b.body.deposits) (hs : DepositSigned E d.data)
    (hnew : UnknownKey s d.data.public_key)
    (hall : ∀ x ∈ b.body.deposits, x.data.public_key = d.data.public_key →
      E.max_effective_balance ≤ x.data.amount) :
    ∃ i, Enrolled E d.data.public_key i u := by
  obtain ⟨a0, a1, a2, a3, a4, a5, a6, hp⟩ := phases hmax h
  have n3 : NewKey E d.data.public_key a3 := by
    intro j w hw hk
    have hl : a3.validators.length = s.validators.length := by
      rw [show a3.validators = a2.validators from
        (runs_mod (map_all fun _ _ => attestation_mod) hp.votes) .validators (by decide), hp.length]
    have hj := (List.getElem?_eq_some_iff.1 hw).1
    have hj' : s.validators[j]? = some s.validators[j] := List.getElem?_eq_getElem (by omega)
    obtain ⟨w', hw', hk', -⟩ := C11_registry_moves_forward E hE f s a3 hp.i3.history j _ hj'
    rw [hw] at hw'; cases hw'
    exact absurd (hk'.symm.trans hk) (hnew _ (List.getElem_mem _))
  have n4 : NewKey E d.data.public_key a4 :=
    runs_inv (J := NewKey E d.data.public_key) (map_all fun x hx t u ht hm =>
      newKey_deposit hE hB hf (hall x hx) ht hm) hp.deposits n3
  have e4 : ∃ i, Enrolled E d.data.public_key i a4 := by
    obtain ⟨l, r, t, u, he, -, h2, h3⟩ := runs_mem (List.mem_map_of_mem hd) hp.deposits
    obtain ⟨v, hv, hk⟩ := (deposit_newcomer hE h2).1 hs
    obtain ⟨i, hi⟩ := List.getElem?_of_mem hv
    have k : History E f u a4 := runs_history (fun m hm => by
      have : m ∈ b.body.deposits.map (process_deposit E f) := by
        rw [he]; exact List.mem_append_right _ (List.mem_cons_of_mem _ hm)
      obtain ⟨x, -, rfl⟩ := List.mem_map.1 this
      exact .process_deposit _) .start h3
    obtain ⟨w, hw, hwk, -⟩ := C11_registry_moves_forward E hE f u a4 k i v hi
    exact ⟨i, w, hw, hwk.trans hk, n4 i w hw (hwk.trans hk)⟩
  obtain ⟨i, e4⟩ := e4
  have e5 := runs_inv (J := Enrolled E d.data.public_key i) (map_all fun _ _ t u ht hm =>
    enrolled_step (voluntary_exit_still.toOk.ok hm) (voluntary_exit_weights.toOk.ok hm)
      ((voluntary_exit_reg hE).toOk.ok hm) ht) hp.exits e4
  have e6 := runs_inv (J := Enrolled E d.data.public_key i) (later_all
    (fun _ _ _ t u ht hm => enrolled_step (bls_change_still.toOk.ok hm)
      (bls_change_weights.toOk.ok hm) (bls_change_reg.toOk.ok hm) ht)
    (fun h => absurd h hf) (fun h => absurd h hf) (fun h => absurd h hf)) hp.later e5
  refine ⟨i, runs_inv (J := Enrolled E d.data.public_key i) (closing_all fun _ t u ht hm => ?_)
    hp.closing e6⟩
  obtain ⟨w, hw, hr⟩ := ht
  have : u.validators = t.validators :=
    (sync_aggregate_mod.toOk.ok hm : ChangesOnly _ t u) .validators (by decide)
  exact ⟨w, by rw [this]; exact hw, hr⟩

/-- Where the validator stands later: still to join in the epoch it was enrolled in, and then on the
queue, or activated. -/
def Coming (E : Env) (key : PublicKey) (e i : Nat) (t : State) : Prop :=
  ∃ v, t.validators[i]? = some v ∧ v.public_key = key ∧
    (epochOf E t.slot = e ∧ Newcomer E v ∨
      e < epochOf E t.slot ∧ v.activation_eligibility_epoch = e + 1 ∧
        (v.activation_epoch = FAR_FUTURE_EPOCH ∨ v.activation_epoch ≤ nextFreeEpoch E t))

theorem coming_slot {e : Nat} (hb : e + 1 < FAR_FUTURE_EPOCH) (hf : f ≠ .Electra) (ho : Orderly E f t)
    (hc : Coming E key e i t) (h : process_slots E f (t.slot + 1) t = .ok () u) : Coming E key e i u := by
  obtain ⟨v, hv, hk, hst⟩ := hc
  obtain ⟨w, hw, hwk⟩ := ((slots_reg ho.config).toOk.ok h).1 i v hv
  rcases (slot_turn ho h).2.2 with ⟨q1, q2⟩ | ⟨j, A, q⟩
  · refine ⟨v, by rw [q2]; exact hv, hk, ?_⟩
    unfold nextFreeEpoch at *
    rw [q1]; exact hst
  · obtain ⟨w', hw', q1, q2⟩ := q.entries i v hv
    rw [hw] at hw'; cases hw'
    refine ⟨w, hw, hwk.key.trans hk, Or.inr ?_⟩
    have he := q.epoch
    rcases hst with ⟨r0, r1, r2, r3⟩ | ⟨r0, r1, r2⟩
    · have hJ : JoinsQueue E f v := ⟨r1, by rw [if_neg hf]; exact r3⟩
      rw [if_pos hJ] at q1
      refine ⟨by omega, by omega, ?_⟩
      by_cases hA : i ∈ A
      · rw [if_pos hA] at q2
        unfold nextFreeEpoch at *
        omega
      · rw [if_neg hA] at q2
        exact Or.inl (q2.trans r2)
    · have hsmall : v.activation_eligibility_epoch ≠ FAR_FUTURE_EPOCH := by omega
      refine ⟨by omega, by rw [q1, if_neg fun h => hsmall h.1]; exact r1, ?_⟩
      unfold nextFreeEpoch at *
      by_cases hA : i ∈ A
      · rw [if_pos hA] at q2; omega
      · rw [if_neg hA] at q2
        rcases r2 with r2 | r2
        · exact Or.inl (q2.trans r2)
        · right; omega

theorem coming_block {e : Nat} {b : BeaconBlock} (ho : Orderly E f t) (hc : Coming E key e i t)
    (h : process_block E f b t = .ok () u) : Coming E key e i u := by
  obtain ⟨v, hv, hk, hst⟩ := hc
  obtain ⟨-, -, hsl, hstill⟩ := block_turn ho h
  obtain ⟨w, hw, e1, e2⟩ := hstill.1 i v hv
  obtain ⟨w', hw', e3⟩ := (block_weights.toOk.ok h : Weights t u).2 i v hv
  obtain ⟨w'', hw'', e4⟩ := ((block_reg ho.config).toOk.ok h : Reg t u).1 i v hv
  rw [hw] at hw' hw''; cases hw'; cases hw''
  refine ⟨w, hw, e4.key.trans hk, ?_⟩
  unfold nextFreeEpoch Newcomer at *
  rw [hsl, e1, e2, e3]
  exact hst

theorem follows_orderly (ho : Orderly E f s) (h : Follows E f s t) : Orderly E f t := by
  induction h with
  | start => exact ho
  | slot _ h ih => exact (slot_turn ih h).1
  | block _ h ih => exact (block_turn ih h).1

theorem follows_reg (hE : SaneConfig E) (h : Follows E f s t) : Reg s t := by
  induction h with
  | start => exact regPre.refl s
  | slot _ h ih => exact regPre.trans ih ((slots_reg hE).toOk.ok h)
  | block _ h ih => exact regPre.trans ih ((block_reg hE).toOk.ok h)

theorem follows_coming (hb : epochOf E s.slot + 1 < FAR_FUTURE_EPOCH) (hf : f ≠ .Electra)
    (ho : Orderly E f s) (he : Enrolled E key i s) (h : Follows E f s t) : Coming E key (epochOf E s.slot) i t := by
  induction h with
  | start =>
    obtain ⟨v, hv, hk, hn⟩ := he
    exact ⟨v, hv, hk, Or.inl ⟨rfl, hn⟩⟩
  | slot h' h ih => exact coming_slot hb hf (follows_orderly ho h') ih h
  | block h' h ih => exact coming_block (follows_orderly ho h') ih h

end

end Verif
