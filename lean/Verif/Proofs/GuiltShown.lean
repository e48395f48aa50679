import Verif.Proofs.Guilt
import Verif.Proofs.AdvanceBlock

/-! # Evidence is accepted -/

namespace Verif

open Spec

variable {E : Env} {f : Fork} {s s' : State} {T : Err → Prop}

/-- Neither the election nor the exits change. -/
def Mild (s s' : State) : Prop :=
  s'.slot = s.slot ∧ s'.randao_mixes = s.randao_mixes ∧
    s'.validators.map (fun v => (v.activation_epoch, v.exit_epoch, v.effective_balance)) =
      s.validators.map (fun v => (v.activation_epoch, v.exit_epoch, v.effective_balance))

theorem mildPre : Preorder' Mild :=
  ⟨fun _ => ⟨rfl, rfl, rfl⟩, fun h h' =>
    ⟨h'.1.trans h.1, h'.2.1.trans h.2.1, h'.2.2.trans h.2.2⟩⟩

theorem mild_mod {α : Type} {W : List Field} {m : M α} (h : Modifies W m)
    (hW : ∀ x ∈ [Field.slot, .randao_mixes, .validators], x ∉ W) : Pres Mild m :=
  Pres.mono h fun s s' h => ⟨h .slot (hW _ (by decide)), h .randao_mixes (hW _ (by decide)), by
    rw [show s'.validators = s.validators from h .validators (hW _ (by decide))]⟩

theorem mild_updValidator {i : Nat} {g : Validator → Validator}
    (h : ∀ v, ((g v).activation_epoch, (g v).exit_epoch, (g v).effective_balance) =
      (v.activation_epoch, v.exit_epoch, v.effective_balance)) : Pres Mild (updValidator i g) := by
  apply Pres.updValidator mildPre
  intro s v hv
  refine ⟨rfl, rfl, ?_⟩
  dsimp only
  rw [List.map_set, h v]
  exact set_self (by rw [List.getElem?_map, hv]; rfl)

theorem mild_upd {g : State → State} (h : ∀ s, (g s).validators = s.validators)
    (h1 : ∀ s, (g s).slot = s.slot) (h2 : ∀ s, (g s).randao_mixes = s.randao_mixes) :
    Pres Mild (upd g) := Pres.upd fun s => ⟨h1 s, h2 s, by rw [h s]⟩

theorem Mild.get (h : Mild s s') (i : Nat) :
    (s'.validators[i]?).map (fun v => (v.activation_epoch, v.exit_epoch, v.effective_balance)) =
      (s.validators[i]?).map (fun v => (v.activation_epoch, v.exit_epoch, v.effective_balance)) := by
  rw [← List.getElem?_map, ← List.getElem?_map, h.2.2]

theorem Mild.election (h : Mild s s') : SameElection E s s' := by
  have hl : s'.validators.length = s.validators.length := by
    have := congrArg List.length h.2.2
    simpa using this
  refine ⟨h.1, h.2.1, ?_, fun i => ?_⟩
  · unfold activeIndices
    rw [hl]
    apply List.filter_congr
    intro j _
    have := h.get j
    cases h1 : s.validators[j]? <;> cases h2 : s'.validators[j]? <;> rw [h1, h2] at this
    · cases this
    · cases this
    · simp only [Option.map_some, Option.some.injEq, Prod.mk.injEq] at this
      apply decide_eq_decide.2
      unfold ActiveAt
      rw [this.1, this.2.1]
  · have := h.get i
    cases h1 : s.validators[i]? <;> cases h2 : s'.validators[i]? <;> rw [h1, h2] at this
    · cases this
    · cases this
    · simp only [Option.map_some, Option.some.injEq, Prod.mk.injEq] at this
      simp only [Option.map_some, this.2.2]

theorem Mild.exits {B : Nat} (h : Mild s s') (hB : ExitsBy B s) : ExitsBy B s' := by
  intro w hw
  obtain ⟨i, hi⟩ := List.getElem?_of_mem hw
  have := h.get i
  rw [hi] at this
  cases h1 : s.validators[i]? <;> rw [h1] at this
  · cases this
  · simp only [Option.map_some, Option.some.injEq, Prod.mk.injEq] at this
    rw [this.2.1]
    exact hB _ (List.mem_of_getElem? h1)

theorem SameElection.trans {t : State} (h : SameElection E s t) (h' : SameElection E t s') :
    SameElection E s s' :=
  ⟨h'.slot.trans h.slot, h'.mixes.trans h.mixes, by
    have := h'.active; rw [h.slot] at this; exact this.trans h.active,
    fun i => (h'.effective i).trans (h.effective i)⟩

theorem exit_election {i : Nat} (h : Fork.initiate_validator_exit E f i s = .ok () s') :
    SameElection E s s' := by
  obtain ⟨v, v', he⟩ := Fork.initiate_validator_exit_effect h
  refine exitEffect_sameElection he (v'' := v') rfl rfl rfl ?_ ?_ ?_ <;> rw [he.state]

theorem slashing_reward_firm {r : Nat} : Firm T (slashing_proposer_reward E f r) := by
  unfold slashing_proposer_reward; cases f <;> firm []

/-- If the exit succeeds, so does the slashing. -/
theorem slash_firm_of {i p : Nat} (hi : FirmM T (Fork.initiate_validator_exit E f i) s)
    (hp : get_beacon_proposer_index E s = .ok p) :
    FirmM T (slash_validator E f i none) s := by
  unfold slash_validator
  refine FirmM_get_bind (FirmM_lift_bind current_epoch_firm fun c hc => ?_)
  refine FirmM_bind hi fun _ t ht => ?_
  have h1 := exit_election ht
  refine FirmM_bind FirmM_updValidator fun _ t2 ht2 => ?_
  have g2 : Mild t t2 := by
    refine Pres.ok ?_ ht2
    exact mild_updValidator fun _ => rfl
  have h2 := h1.trans (g2.election (E := E))
  refine FirmM_lift_bind Firm_add fun _ _ => ?_
  refine FirmM_bind FirmM_updValidator fun _ t3 ht3 => ?_
  have g3 : Mild t2 t3 := by
    refine Pres.ok ?_ ht3
    exact mild_updValidator fun _ => rfl
  have h3 := h2.trans (g3.election (E := E))
  refine FirmM_lift_bind Firm_mod fun _ _ => ?_
  refine FirmM_get_bind (FirmM_lift_bind Firm_idx fun v _ => ?_)
  refine FirmM_lift_bind Firm_idx fun old _ => FirmM_lift_bind Firm_add fun new _ => ?_
  refine FirmM_bind FirmM_upd fun _ t4 ht4 => ?_
  have g4 : Mild t3 t4 := by
    refine Pres.ok ?_ ht4
    exact mild_upd (fun _ => rfl) (fun _ => rfl) fun _ => rfl
  have h4 := h3.trans (g4.election (E := E))
  refine FirmM_lift_bind Firm_div fun _ _ => ?_
  refine FirmM_bind decrease_firm fun _ t5 ht5 => ?_
  have h5 := h4.trans (((mild_mod decrease_mod (by decide)).ok ht5).election (E := E))
  refine FirmM_get_bind (FirmM_lift_bind (Firm_of_ok ((proposer_congr h5).trans hp)) fun q _ => ?_)
  refine FirmM_lift_bind Firm_div fun _ _ => FirmM_lift_bind slashing_reward_firm fun _ _ => ?_
  refine FirmM_bind increase_firm fun _ _ _ => FirmM_lift_bind Firm_sub fun _ _ => increase_firm

theorem slash_firm (hf : f ≠ .Electra) {B i p : Nat} (hB : ExitsBy B s)
    (hl : epochOf E s.slot + 1 + E.max_seed_lookahead ≤ B)
    (hw : B + 1 + E.min_validator_withdrawability_delay < U64_BOUND)
    (hp : get_beacon_proposer_index E s = .ok p) :
    FirmM T (slash_validator E f i none) s := by
  have hd : ∀ i, Fork.initiate_validator_exit E f i = Verif.initiate_validator_exit E i := by
    intro i; cases f <;> first | rfl | exact absurd rfl hf
  exact slash_firm_of (by rw [hd]; exact initiate_firm hB hl hw) hp

theorem slash_after (hf : f ≠ .Electra) {B i : Nat} (hB : ExitsBy B s)
    (hl : epochOf E s.slot + 1 + E.max_seed_lookahead ≤ B)
    (h : slash_validator E f i none s = .ok () s') :
    SameElection E s s' ∧ ExitsBy (B + 1) s' := by
  have hd : ∀ i, Fork.initiate_validator_exit E f i = Verif.initiate_validator_exit E i := by
    intro i; cases f <;> first | rfl | exact absurd rfl hf
  unfold slash_validator at h
  rw [M_get_bind_eq_ok, M_bind_eq_ok] at h
  obtain ⟨c, s1, hc, h⟩ := h
  rw [liftM_eq_ok] at hc
  obtain ⟨hc, rfl⟩ := hc
  rw [M_bind_eq_ok] at h
  obtain ⟨_, t, ht, h⟩ := h
  have hm : Mild t s' := by
    refine Pres.ok ?_ h
    walk mildPre [mild_updValidator, mild_mod increase_mod (by decide),
      mild_mod decrease_mod (by decide), mild_upd]
  refine ⟨(exit_election ht).trans hm.election, hm.exits ?_⟩
  rw [hd] at ht
  exact (initiate_exits hB hl ht).1

/-- Several slashings succeed, one after the other. -/
theorem slashes_total (hE : SaneConfig E) (hq : SaneQuotients E) (hf : f ≠ .Electra) {B k p : Nat}
    {l : List Nat} (hn : l.Nodup) (h : Wellformed E s) (hr : Room k s) (hB : ExitsBy B s)
    (hl : epochOf E s.slot + 1 + E.max_seed_lookahead ≤ B)
    (hw : B + l.length + E.min_validator_withdrawability_delay < U64_BOUND)
    (hp : get_beacon_proposer_index E s = .ok p)
    (hv : ∀ i ∈ l, ∃ v, s.validators[i]? = some v ∧ v.slashed = false) :
    ∃ s', forEach l (fun i => slash_validator E f i none) s = .ok () s' := by
  induction l generalizing s B with
  | nil => exact ⟨s, rfl⟩
  | cons i l ih =>
    rw [List.length_cons] at hw
    rw [List.nodup_cons] at hn
    obtain ⟨v, hvi, hsl⟩ := hv i (by simp)
    obtain ⟨s1, h1, hk, -⟩ := ((slash_validator_calm hE hq hf h hr hvi hsl).sure
      (slash_firm (T := fun _ => False) hf hB hl (by omega) hp)).total
    obtain ⟨he, hB1⟩ := slash_after hf hB hl h1
    obtain ⟨s2, h2⟩ := ih hn.2 hk.wf hk.room hB1 (by rw [he.slot]; omega) (by omega)
      ((proposer_congr he).trans hp) (fun j hj => by
        obtain ⟨w, hw1, hw2⟩ := hv j (by simp [hj])
        have : i ≠ j := fun e => hn.1 (e ▸ hj)
        exact ⟨w, by rw [slash_other h1 this.symm]; exact hw1, hw2⟩)
    exact ⟨s2, by simp only [forEach, run]; exact ⟨s1, h1, h2⟩⟩

end Verif
