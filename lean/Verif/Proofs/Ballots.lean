import Verif.Spec.Finality
import Verif.Proofs.Ancestry
import Verif.Proofs.Duties
import Verif.Proofs.Pending
import Verif.Proofs.Upgrade
import Verif.Proofs.Casper

/-! # What the state knows about the votes of two epochs -/

namespace Verif

open Spec

/-- Validator `i` signed a vote from `src` to the block of the chain at the start of epoch `e`. -/
def Cast (E : Env) (s : State) (hs : List BeaconBlockHeader) (src : Checkpoint) (e i : Nat) :
    Prop :=
  ∃ r, rootAt E hs (e * E.slots_per_epoch) = some r ∧ Voted E s src ⟨e, r⟩ i

/-- A recorded attestation for epoch `e` with source `src`, signed by those it names. -/
structure Backed (E : Env) (s : State) (src : Checkpoint) (e : Nat) (a : PendingAttestation) :
    Prop where
  source : a.data.source = src
  target : a.data.target.epoch = e
  slot : epochOf E a.data.slot = e
  signed : ∀ i, Attested E s a i → Voted E s src a.data.target i

structure Ballots (E : Env) (f : Fork) (s : State) (hs : List BeaconBlockHeader) : Prop where
  small : epochOf E s.slot < FAR_FUTURE_EPOCH
  roots : ∀ n r, get_block_root_at_slot E s n = .ok r → rootAt E hs n = some r
  current_records : f = .Phase0 → ∀ a ∈ s.current_epoch_attestations,
    Backed E s s.current_justified_checkpoint (epochOf E s.slot) a
  previous_records : f = .Phase0 → ∀ a ∈ s.previous_epoch_attestations,
    Backed E s s.previous_justified_checkpoint (epochOf E s.slot - 1) a
  current_flags : f ≠ .Phase0 → ∀ i x, s.current_epoch_participation[i]? = some x →
    FlagSet x 1 → Cast E s hs s.current_justified_checkpoint (epochOf E s.slot) i
  previous_flags : f ≠ .Phase0 → ∀ i x, s.previous_epoch_participation[i]? = some x →
    FlagSet x 1 → Cast E s hs s.previous_justified_checkpoint (epochOf E s.slot - 1) i

theorem voted_mono {E : Env} {s s' : State} (h : Duty E s s')
    (hg : s'.genesis_validators_root = s.genesis_validators_root) {S T : Checkpoint} {i : Nat}
    (hv : Voted E s S T i) : Voted E s' S T i := by
  obtain ⟨v, d, h1, h2, h3⟩ := hv
  obtain ⟨w, hw, hf⟩ := h.2.1 i v h1
  exact ⟨w, d, hw, by rw [hg, hf.key]; exact h2, h3⟩

theorem rootAt_append {E : Env} {hs hs' : List BeaconBlockHeader} {n : Nat} {r : Root}
    (h : rootAt E hs n = some r) : rootAt E (hs ++ hs') n = some r := by
  unfold rootAt at *
  cases hx : hs[n]? with
  | none => rw [hx] at h; cases h
  | some x =>
    rw [List.getElem?_append_left (List.getElem?_eq_some_iff.1 hx).1]
    exact h

theorem Cast.mono {E : Env} {s s' : State} {hs : List BeaconBlockHeader} (h : Duty E s s')
    (hg : s'.genesis_validators_root = s.genesis_validators_root) {S : Checkpoint} {e i : Nat}
    (hc : Cast E s hs S e i) (hs' : List BeaconBlockHeader) : Cast E s' (hs ++ hs') S e i := by
  obtain ⟨r, h1, h2⟩ := hc
  exact ⟨r, rootAt_append h1, voted_mono h hg h2⟩

theorem attested_mono {E : Env} (hE : VotesRemembered E) {s s' : State} (h : Duty E s s')
    (hm : Mix E s s') {a : PendingAttestation} (hsmall : epochOf E s.slot < FAR_FUTURE_EPOCH)
    (h1 : epochOf E a.data.slot ≤ epochOf E s.slot)
    (h2 : epochOf E s'.slot ≤ epochOf E a.data.slot + 2) (i : Nat) :
    Attested E s' a i ↔ Attested E s a i := by
  have := hE.mixes
  have := hE.lookahead
  unfold Attested
  rw [committee_decided h hm (by unfold decided; omega) (by omega) (by omega) (by omega)]

theorem Backed.mono {E : Env} (hE : VotesRemembered E) {s s' : State} (h : Duty E s s')
    (hm : Mix E s s') (hg : s'.genesis_validators_root = s.genesis_validators_root)
    {S : Checkpoint} {e : Nat} {a : PendingAttestation}
    (hsmall : epochOf E s.slot < FAR_FUTURE_EPOCH) (h1 : e ≤ epochOf E s.slot)
    (h2 : epochOf E s'.slot ≤ e + 2) (hb : Backed E s S e a) : Backed E s' S e a := by
  refine ⟨hb.source, hb.target, hb.slot, fun i hi => ?_⟩
  rw [attested_mono hE h hm hsmall (by rw [hb.slot]; exact h1) (by rw [hb.slot]; exact h2)] at hi
  exact voted_mono h hg (hb.signed i hi)

/-! ## Steps that do not concern votes -/

structure Quiet (E : Env) (s s' : State) : Prop where
  duty : Duty E s s'
  mix : Mix E s s'
  slot : s'.slot = s.slot
  roots : s'.block_roots = s.block_roots
  current : s'.current_justified_checkpoint = s.current_justified_checkpoint
  previous : s'.previous_justified_checkpoint = s.previous_justified_checkpoint
  genesis : s'.genesis_validators_root = s.genesis_validators_root
  current_records : s'.current_epoch_attestations = s.current_epoch_attestations
  previous_records : s'.previous_epoch_attestations = s.previous_epoch_attestations
  current_flags : ∀ (i : Nat) x, s'.current_epoch_participation[i]? = some x → FlagSet x 1 →
    s.current_epoch_participation[i]? = some x
  previous_flags : ∀ (i : Nat) x, s'.previous_epoch_participation[i]? = some x → FlagSet x 1 →
    s.previous_epoch_participation[i]? = some x

theorem Quiet.ballots {E : Env} (hE : VotesRemembered E) {f : Fork} {s s' : State}
    {hs : List BeaconBlockHeader} (h : Quiet E s s') (b : Ballots E f s hs) :
    Ballots E f s' hs := by
  refine ⟨by rw [h.slot]; exact b.small, fun n r hr => b.roots n r ?_, fun hf a ha => ?_,
    fun hf a ha => ?_, fun hf i x hx hj => ?_, fun hf i x hx hj => ?_⟩
  · rw [block_root_at_slot_eq_ok] at hr ⊢
    rw [← h.slot, ← h.roots]; exact hr
  · rw [h.current_records] at ha
    rw [h.slot, h.current]
    exact (b.current_records hf a ha).mono hE h.duty h.mix h.genesis b.small (Nat.le_refl _)
      (by rw [h.slot]; omega)
  · rw [h.previous_records] at ha
    rw [h.slot, h.previous]
    exact (b.previous_records hf a ha).mono hE h.duty h.mix h.genesis b.small (by omega)
      (by rw [h.slot]; omega)
  · rw [h.slot, h.current]
    have := (b.current_flags hf i x (h.current_flags i x hx hj) hj).mono h.duty h.genesis []
    rwa [List.append_nil] at this
  · rw [h.slot, h.previous]
    have := (b.previous_flags hf i x (h.previous_flags i x hx hj) hj).mono h.duty h.genesis []
    rwa [List.append_nil] at this

/-- If the votes were in order before, they are in order after. -/
def Keeps (E : Env) (f : Fork) (hs : List BeaconBlockHeader) (s s' : State) : Prop :=
  Ballots E f s hs → Ballots E f s' hs

theorem keepsPre (E : Env) (f : Fork) (hs : List BeaconBlockHeader) : Preorder' (Keeps E f hs) :=
  ⟨fun _ h => h, fun h h' b => h' (h b)⟩

/-- The fields about votes. -/
def voteFields : List Field :=
  [.slot, .block_roots, .current_justified_checkpoint, .previous_justified_checkpoint,
   .genesis_validators_root, .current_epoch_attestations, .previous_epoch_attestations]

/-- Participation flags only get zero entries. -/
def Blank (s s' : State) : Prop :=
  (∀ (i : Nat) x, s'.current_epoch_participation[i]? = some x → FlagSet x 1 →
    s.current_epoch_participation[i]? = some x) ∧
  ∀ (i : Nat) x, s'.previous_epoch_participation[i]? = some x → FlagSet x 1 →
    s.previous_epoch_participation[i]? = some x

theorem blankPre : Preorder' Blank :=
  ⟨fun _ => ⟨fun _ _ h _ => h, fun _ _ h _ => h⟩, fun h h' =>
    ⟨fun i x hx hj => h.1 i x (h'.1 i x hx hj) hj, fun i x hx hj => h.2 i x (h'.2 i x hx hj) hj⟩⟩

theorem blank_mod {α : Type} {W : List Field} {m : M α} (h : Modifies W m)
    (hW : ∀ x ∈ [Field.current_epoch_participation, .previous_epoch_participation], x ∉ W) :
    Pres Blank m :=
  Pres.mono h fun s s' h => by
    have h1 : s'.current_epoch_participation = s.current_epoch_participation :=
      h _ (hW .current_epoch_participation (by decide))
    have h2 : s'.previous_epoch_participation = s.previous_epoch_participation :=
      h _ (hW .previous_epoch_participation (by decide))
    unfold Blank
    rw [h1, h2]
    exact blankPre.refl s

theorem upd_blank {g : State → State}
    (h1 : ∀ s, (g s).current_epoch_participation = s.current_epoch_participation)
    (h2 : ∀ s, (g s).previous_epoch_participation = s.previous_epoch_participation) :
    Pres Blank (upd g) := Pres.upd fun s => by
  unfold Blank
  rw [h1, h2]
  exact blankPre.refl s

theorem append_zero {l : List UInt8} {i : Nat} {x : UInt8} (h : (l ++ [0])[i]? = some x)
    (hj : FlagSet x 1) : l[i]? = some x := by
  rcases Nat.lt_or_ge i l.length with hi | hi
  · rwa [List.getElem?_append_left hi] at h
  · rw [List.getElem?_append_right hi] at h
    have := List.mem_of_getElem? h
    rw [List.mem_singleton] at this
    subst this
    exact absurd hj (by decide)

theorem add_validator_blank {E : Env} {f : Fork} {k : PublicKey} {w : Bytes32} {n : Nat} :
    Pres Blank (add_validator_to_registry E f k w n) := by
  intro s
  unfold add_validator_to_registry
  rw [wp_bind, wp_liftM]
  refine ⟨fun v hv => ?_, fun _ _ => blankPre.refl s⟩
  cases f
  case Phase0 => exact ⟨fun _ _ h _ => h, fun _ _ h _ => h⟩
  all_goals exact ⟨fun _ _ h hj => append_zero h hj, fun _ _ h hj => append_zero h hj⟩

theorem apply_deposit_blank {E : Env} {f : Fork} {k : PublicKey} {w : Bytes32} {n : Nat}
    {sig : Signature} : Pres Blank (apply_deposit E f k w n sig) := by
  have pre := blankPre
  unfold apply_deposit Phase0.apply_deposit Electra.apply_deposit
  walk pre [add_validator_blank, blank_mod increase_mod (by decide),
    blank_mod switch_mod (by decide), upd_blank]

theorem deposit_blank {E : Env} {f : Fork} {d : Deposit} : Pres Blank (process_deposit E f d) := by
  have pre := blankPre
  unfold process_deposit; walk pre [apply_deposit_blank, upd_blank]

theorem deposit_receipt_blank {E : Env} {r : DepositReceipt} :
    Pres Blank (Electra.process_deposit_receipt E r) := by
  have pre := blankPre
  unfold Electra.process_deposit_receipt Electra.apply_deposit
  walk pre [add_validator_blank, blank_mod switch_mod (by decide), upd_blank]

theorem quiet_keeps {α : Type} {E : Env} (hE : VotesRemembered E) {f : Fork}
    {hs : List BeaconBlockHeader} {m : M α} {W : List Field} (h1 : Modifies W m)
    (h2 : ∀ x ∈ voteFields, x ∉ W) (h3 : Pres (Duty E) m) (h4 : Pres (Mix E) m)
    (h5 : Pres Blank m) : Pres (Keeps E f hs) m := by
  intro s
  refine wp_mono (wp_and (h1 s) (wp_and (h3 s) (wp_and (h4 s) (h5 s)))) ?_ ?_
  all_goals
    rintro _ s' ⟨c, d, m, b⟩ hb
    have c : ∀ x ∈ voteFields, x.same s s' := fun x hx => c x (h2 x hx)
    exact Quiet.ballots hE ⟨d, m, c .slot (by decide), c .block_roots (by decide),
      c .current_justified_checkpoint (by decide), c .previous_justified_checkpoint (by decide),
      c .genesis_validators_root (by decide), c .current_epoch_attestations (by decide),
      c .previous_epoch_attestations (by decide), b.1, b.2⟩ hb

/-- In particular what does not touch the registry either. -/
theorem mod_keeps {α : Type} {E : Env} (hE : VotesRemembered E) {f : Fork}
    {hs : List BeaconBlockHeader} {m : M α} {W : List Field} (h1 : Modifies W m)
    (h2 : ∀ x ∈ voteFields ++ [Field.validators, .randao_mixes, .current_epoch_participation,
      .previous_epoch_participation], x ∉ W) : Pres (Keeps E f hs) m :=
  quiet_keeps hE h1 (fun x hx => h2 x (List.mem_append_left _ hx))
    (duty_mod h1 fun x hx => h2 x (by revert x; decide))
    (mix_mod h1 fun x hx => h2 x (by revert x; decide))
    (blank_mod h1 fun x hx => h2 x (by revert x; decide))

/-- Or writes only the registry. -/
theorem duty_keeps {α : Type} {E : Env} (hE : VotesRemembered E) {f : Fork}
    {hs : List BeaconBlockHeader} {m : M α} {W : List Field} (h1 : Modifies W m)
    (h3 : Pres (Duty E) m)
    (h2 : ∀ x ∈ voteFields ++ [Field.randao_mixes, .current_epoch_participation,
      .previous_epoch_participation], x ∉ W) : Pres (Keeps E f hs) m :=
  quiet_keeps hE h1 (fun x hx => h2 x (List.mem_append_left _ hx)) h3
    (mix_mod h1 fun x hx => h2 x (by revert x; decide))
    (blank_mod h1 fun x hx => h2 x (by revert x; decide))

/-! ## Attestations -/

theorem voted_of_valid {E : Env} {s : State} {l : List Nat} {d : AttestationData}
    {sig : Signature} (h : ValidIndexed E s ⟨l, d, sig⟩) {i : Nat} (hi : i ∈ l) :
    Voted E s d.source d.target i := by
  have hr : ∀ i ∈ l, i < s.validators.length := h.in_range
  have hlt := hr i hi
  have hkeys : ∃ keys : List PublicKey, keys.map some =
      l.map (fun i => (s.validators[i]?).map Validator.public_key) := by
    have : ∀ m : List Nat, (∀ i ∈ m, i < s.validators.length) → ∃ keys : List PublicKey,
        keys.map some = m.map (fun i => (s.validators[i]?).map Validator.public_key) := by
      intro m hm
      induction m with
      | nil => exact ⟨[], rfl⟩
      | cons x m ih =>
        obtain ⟨ks, hk⟩ := ih fun i hi => hm i (by simp [hi])
        have hx := hm x (by simp)
        exact ⟨s.validators[x].public_key :: ks, by simp [hk, hx]⟩
    exact this l hr
  obtain ⟨keys, hk⟩ := hkeys
  have hs := h.signed keys hk
  have hv : s.validators[i]? = some s.validators[i] := List.getElem?_eq_getElem hlt
  refine ⟨_, d, hv, ⟨_, keys, sig, ?_, hs⟩, rfl, rfl⟩
  have : some s.validators[i].public_key ∈ keys.map some := by
    rw [hk, List.mem_map]
    exact ⟨i, hi, by rw [hv]; rfl⟩
  simpa using this

theorem phase0_attestation_keeps {E : Env} {hs : List BeaconBlockHeader} {a : Attestation} :
    Pres (Keeps E .Phase0 hs) (Phase0.process_attestation E a) := by
  unfold Phase0.process_attestation
  intro s
  have r0 := (keepsPre E .Phase0 hs).refl s
  simp only [wps]
  refine ⟨fun cur hcur => ⟨fun _ _ => ⟨fun idx hidx => ⟨fun _ hval => ⟨fun delay _ => ⟨fun p _ => ?_,
    fun _ _ => r0⟩, fun _ _ => r0⟩, fun _ _ => r0⟩, fun _ _ => r0⟩, fun _ _ => r0⟩, fun _ _ => r0⟩
  simp only [check_attestation_data, compute_epoch_at_slot, run, previous_epoch_eq_ok,
    current_epoch_eq_ok] at hcur
  obtain ⟨_, ⟨rfl, -⟩, _, ⟨rfl, -⟩, h1, _, ⟨rfl, -⟩, h2, _, ⟨rfl, -⟩, _, ⟨rfl, -⟩, -, rfl⟩ := hcur
  have h2 : a.data.target.epoch = epochOf E a.data.slot := by simpa [epochOf] using h2
  obtain ⟨l, h6, rfl⟩ := indexed_attestation_eq_ok.1 hidx
  have hv := valid_indexed_iff.1 hval
  have hb : ∀ e, a.data.target.epoch = e → ∀ S, a.data.source = S → Backed E s S e
      ⟨a.aggregation_bits, a.data, delay, p⟩ := by
    intro e he S hS
    refine ⟨hS, he, h2 ▸ he, fun i hi => ?_⟩
    subst hS
    refine voted_of_valid hv ?_
    rw [mem_sortBy, attested_of_ok (a := ⟨a.aggregation_bits, a.data, delay, p⟩) h6]
    exact hi
  constructor
  · intro hc
    have hc : a.data.target.epoch = epochOf E s.slot := by simpa using hc
    refine ⟨fun _ hsrc => ?_, fun _ _ => r0⟩
    have hsrc : a.data.source = s.current_justified_checkpoint := by simpa using hsrc
    intro b
    refine ⟨b.small, b.roots, fun hf x hx => ?_, 
      fun hf x hx => have h := b.previous_records hf x hx; ⟨h.1, h.2, h.3, h.4⟩,
      fun hf => absurd rfl hf, fun hf => absurd rfl hf⟩
    rcases List.mem_append.1 hx with hx | hx
    · have h := b.current_records hf x hx
      exact ⟨h.1, h.2, h.3, h.4⟩
    · rw [List.mem_singleton] at hx
      subst hx
      have h := hb _ hc _ hsrc
      exact ⟨h.1, h.2, h.3, h.4⟩
  · intro hc
    have hc : a.data.target.epoch = epochOf E s.slot - 1 := by
      have h1 : a.data.target.epoch = epochOf E s.slot - 1 ∨ a.data.target.epoch = epochOf E s.slot := by
        rw [or_iff_not_imp_left]
        simpa using h1
      have : a.data.target.epoch ≠ epochOf E s.slot := by simpa using hc
      exact h1.resolve_right this
    refine ⟨fun _ hsrc => ?_, fun _ _ => r0⟩
    have hsrc : a.data.source = s.previous_justified_checkpoint := by simpa using hsrc
    intro b
    refine ⟨b.small, b.roots, 
      fun hf x hx => have h := b.current_records hf x hx; ⟨h.1, h.2, h.3, h.4⟩, fun hf x hx => ?_,
      fun hf => absurd rfl hf, fun hf => absurd rfl hf⟩
    rcases List.mem_append.1 hx with hx | hx
    · have h := b.previous_records hf x hx
      exact ⟨h.1, h.2, h.3, h.4⟩
    · rw [List.mem_singleton] at hx
      subst hx
      have h := hb _ hc _ hsrc
      exact ⟨h.1, h.2, h.3, h.4⟩

/-- Only validators of `l` get the target flag, and only if it is in `fl`. -/
def Marks (c : Bool) (fl l : List Nat) (s s' : State) : Prop :=
  ChangesOnly [.current_epoch_participation, .previous_epoch_participation] s s' ∧
  participationOf (!c) s' = participationOf (!c) s ∧
  ∀ (i : Nat) x, (participationOf c s')[i]? = some x → FlagSet x 1 →
    (∃ y, (participationOf c s)[i]? = some y ∧ FlagSet y 1) ∨ (i ∈ l ∧ 1 ∈ fl)

theorem marksPre (c : Bool) (fl l : List Nat) : Preorder' (Marks c fl l) := by
  refine ⟨fun s => ⟨(changesPre _).refl s, rfl, fun i x hx hj => Or.inl ⟨x, hx, hj⟩⟩, ?_⟩
  rintro s t u ⟨h1, h2, h3⟩ ⟨g1, g2, g3⟩
  refine ⟨(changesPre _).trans h1 g1, g2.trans h2, fun i x hx hj => ?_⟩
  rcases g3 i x hx hj with ⟨y, hy, hj'⟩ | h
  · exact h3 i y hy hj'
  · exact Or.inr h

theorem apply_flag_marks {E : Env} {c : Bool} {fl l : List Nat} {i n : Nat} {x : Nat × Nat}
    (hi : i ∈ l) : Pres (Marks c fl l) (apply_flag E c fl i n x) := by
  intro s
  have r0 := (marksPre c fl l).refl s
  unfold apply_flag
  simp only [wps]
  refine ⟨fun hc => ⟨fun y hy => ⟨fun pr hpr => ⟨fun _ => r0, fun hp => ⟨fun z hz => ?_,
    fun _ _ => r0⟩⟩, fun _ _ => r0⟩, fun _ _ => r0⟩, fun _ => r0⟩
  have key : Marks c fl l s (setParticipation c ((participationOf c s).set i z) s) := by
    refine ⟨setParticipation_changes (g := fun s => (participationOf c s).set i z), ?_, ?_⟩
    · cases c <;> rfl
    intro k w hw hj
    have : participationOf c (setParticipation c ((participationOf c s).set i z) s) =
        (participationOf c s).set i z := by cases c <;> rfl
    rw [this] at hw
    rw [idx_eq_ok] at hy
    by_cases hk : i = k
    · subst hk
      rw [List.getElem?_set_self (List.getElem?_eq_some_iff.1 hy).1] at hw
      cases hw
      obtain ⟨-, hz⟩ := add_flag_spec hz
      by_cases h1 : x.1 = 1
      · right
        refine ⟨hi, ?_⟩
        rw [← h1]
        simpa using hc
      · left
        exact ⟨y, hy, ((hz 1 (by decide)).1 hj).resolve_right (Ne.symm h1)⟩
    · rw [List.getElem?_set_ne hk] at hw
      exact Or.inl ⟨w, hw, hj⟩
  refine ⟨fun _ _ => ⟨fun _ _ => ⟨fun _ _ => key, fun _ _ => key⟩, fun _ _ => key⟩, fun _ _ => key⟩

theorem foldlM_marks {α β : Type} {r : State → State → Prop} (hr : Preorder' r) {xs : List α}
    {body : β → α → M β} {b : β} (h : ∀ b, ∀ x ∈ xs, Pres r (body b x)) :
    Pres r (xs.foldlM body b) := by
  induction xs generalizing b with
  | nil => exact Pres.pure hr _
  | cons x xs ih =>
    exact Pres.bind hr (h b x (by simp)) fun _ => ih fun b y hy => h b y (by simp [hy])

theorem apply_flags_marks {E : Env} {c : Bool} {fl l : List Nat} :
    Pres (Marks c fl l) (apply_flags E c fl l) := by
  unfold apply_flags
  exact foldlM_marks (marksPre c fl l) fun _ i hi =>
    foldlM_marks (marksPre c fl l) fun _ _ _ => apply_flag_marks hi

/-- Setting the flags of those who signed. -/
theorem marks_keeps {E : Env} {f : Fork} {hs : List BeaconBlockHeader} {s s' : State}
    {d : AttestationData} {fl l : List Nat} (hf : f ≠ .Phase0)
    (hep : d.target.epoch = epochOf E s.slot ∨ d.target.epoch = epochOf E s.slot - 1)
    (hsrc : d.source = if d.target.epoch = epochOf E s.slot then s.current_justified_checkpoint
      else s.previous_justified_checkpoint)
    (hfl : 1 ∈ fl → get_block_root E s d.target.epoch = .ok d.target.root)
    (hv : ∀ i ∈ l, Voted E s d.source d.target i)
    (h : Marks (decide (d.target.epoch = epochOf E s.slot)) fl l s s') : Keeps E f hs s s' := by
  intro b
  obtain ⟨h1, h2, h3⟩ := h
  have c : ∀ x ∈ voteFields ++ [Field.validators, .randao_mixes], x.same s s' :=
    fun x hx => h1 x (by revert x; decide)
  have e1 : s'.slot = s.slot := c .slot (by decide)
  have e2 : s'.block_roots = s.block_roots := c .block_roots (by decide)
  have e3 : s'.current_justified_checkpoint = s.current_justified_checkpoint :=
    c .current_justified_checkpoint (by decide)
  have e4 : s'.previous_justified_checkpoint = s.previous_justified_checkpoint :=
    c .previous_justified_checkpoint (by decide)
  have e5 : s'.genesis_validators_root = s.genesis_validators_root :=
    c .genesis_validators_root (by decide)
  have e6 : s'.validators = s.validators := c .validators (by decide)
  have hd : Duty E s s' := duty_of_same e6 e1
  have cast : ∀ {S e i}, Cast E s hs S e i → Cast E s' hs S e i := by
    intro S e i h
    have := h.mono hd e5 []
    rwa [List.append_nil] at this
  have new : ∀ i ∈ l, 1 ∈ fl → Cast E s hs d.source d.target.epoch i := by
    intro i hi h1
    refine ⟨d.target.root, b.roots _ _ ?_, hv i hi⟩
    have := hfl h1
    simp only [get_block_root, compute_start_slot_at_epoch, run] at this
    obtain ⟨_, ⟨rfl, -⟩, h⟩ := this
    exact h
  refine ⟨by rw [e1]; exact b.small, fun n r hr => b.roots n r ?_, fun hp => absurd hp hf,
    fun hp => absurd hp hf, fun _ i x hx hj => ?_, fun _ i x hx hj => ?_⟩
  · rw [block_root_at_slot_eq_ok] at hr ⊢
    rw [← e1, ← e2]; exact hr
  · rw [e1, e3]
    apply cast
    by_cases hc : d.target.epoch = epochOf E s.slot
    · rw [if_pos hc] at hsrc
      simp only [hc, decide_true] at h3
      rcases h3 i x hx hj with ⟨y, hy, hj'⟩ | ⟨hi, h1⟩
      · exact b.current_flags hf i y hy hj'
      · rw [← hc, ← hsrc]; exact new i hi h1
    · simp only [hc, decide_false, Bool.not_false] at h2
      have h2 : s'.current_epoch_participation = s.current_epoch_participation := h2
      rw [h2] at hx
      exact b.current_flags hf i x hx hj
  · rw [e1, e4]
    apply cast
    by_cases hc : d.target.epoch = epochOf E s.slot
    · simp only [hc, decide_true, Bool.not_true] at h2
      have h2 : s'.previous_epoch_participation = s.previous_epoch_participation := h2
      rw [h2] at hx
      exact b.previous_flags hf i x hx hj
    · rw [if_neg hc] at hsrc
      simp only [hc, decide_false] at h3
      rcases h3 i x hx hj with ⟨y, hy, hj'⟩ | ⟨hi, h1⟩
      · exact b.previous_flags hf i y hy hj'
      · rw [← hep.resolve_left hc, ← hsrc]; exact new i hi h1

theorem check_data_ok {E : Env} {f : Fork} {s : State} {d : AttestationData} {c : Bool}
    (h : check_attestation_data E f s d = .ok c) :
    c = decide (d.target.epoch = epochOf E s.slot) ∧
    (d.target.epoch = epochOf E s.slot ∨ d.target.epoch = epochOf E s.slot - 1) := by
  cases f
  all_goals
    simp only [check_attestation_data, compute_epoch_at_slot, run, previous_epoch_eq_ok,
      current_epoch_eq_ok] at h
    obtain ⟨_, ⟨rfl, -⟩, _, ⟨rfl, -⟩, h1, h⟩ := h
    have h1 : d.target.epoch = epochOf E s.slot ∨ d.target.epoch = epochOf E s.slot - 1 := by
      rw [or_comm, or_iff_not_imp_left]
      simpa using h1
    refine ⟨?_, h1⟩
  case Deneb | Electra => obtain ⟨_, _, _, _, _, _, h⟩ := h; exact h.symm
  all_goals obtain ⟨_, _, _, _, _, _, _, _, h⟩ := h; exact h.symm

theorem apply_flags_keeps {E : Env} (hS : SaneConfig E) (hE : VotesRemembered E) {f : Fork}
    (hf : f ≠ .Phase0) {hs : List BeaconBlockHeader} {s : State} {d : AttestationData}
    {delay : Nat} {c : Bool} {fl l : List Nat} {sig : Signature}
    (h1 : check_attestation_data E f s d = .ok c)
    (h2 : get_attestation_participation_flag_indices E f s d delay = .ok fl)
    (h3 : ValidIndexed E s ⟨sortBy (· ≤ ·) l, d, sig⟩) :
    wp (apply_flags E c fl l >>= reward_attestation_proposer E)
      (fun _ s' => Keeps E f hs s s') (fun _ s' => Keeps E f hs s s') s := by
  obtain ⟨rfl, hep⟩ := check_data_ok h1
  obtain ⟨he, hsrc⟩ := earned_flags hS h2
  have key : ∀ s', Marks (decide (d.target.epoch = epochOf E s.slot)) fl l s s' →
      Keeps E f hs s s' := fun s' h =>
    marks_keeps hf hep hsrc (fun h => (he.target.1 h).1)
      (fun i hi => voted_of_valid h3 (mem_sortBy.2 hi)) h
  rw [wp_bind]
  refine wp_mono (apply_flags_marks s) (fun n t ht => ?_) fun _ t ht => key t ht
  refine wp_mono ((mod_keeps hE reward_proposer_mod (by decide) : Pres (Keeps E f hs) _) t) ?_ ?_
  · intro _ u hu; exact (keepsPre E f hs).trans (key t ht) hu
  · intro _ u hu; exact (keepsPre E f hs).trans (key t ht) hu

theorem attestation_keeps {E : Env} (hS : SaneConfig E) (hE : VotesRemembered E) {f : Fork}
    {hs : List BeaconBlockHeader} {a : Attestation} :
    Pres (Keeps E f hs) (process_attestation E f a) := by
  have alt : ∀ f, f ≠ .Phase0 → Pres (Keeps E f hs) (Altair.process_attestation E f a) := by
    intro f hf s
    have r0 := (keepsPre E f hs).refl s
    unfold Altair.process_attestation
    rw [wp_bind, wp_get, wp_bind, wp_liftM]
    refine ⟨fun c h1 => ?_, fun _ _ => r0⟩
    rw [wp_bind, wp_liftM]
    refine ⟨fun _ _ => ?_, fun _ _ => r0⟩
    rw [wp_bind, wp_liftM]
    refine ⟨fun delay _ => ?_, fun _ _ => r0⟩
    rw [wp_bind, wp_liftM]
    refine ⟨fun fl h2 => ?_, fun _ _ => r0⟩
    rw [wp_bind, wp_liftM]
    refine ⟨fun ix h3 => ?_, fun _ _ => r0⟩
    rw [wp_bind, wp_liftM]
    refine ⟨fun _ h4 => ?_, fun _ _ => r0⟩
    rw [wp_bind, wp_liftM]
    refine ⟨fun l h5 => ?_, fun _ _ => r0⟩
    obtain ⟨l', h6, rfl⟩ := indexed_attestation_eq_ok.1 h3
    rw [h5] at h6; cases h6
    exact apply_flags_keeps hS hE hf h1 h2 (valid_indexed_iff.1 h4)
  have ele : Pres (Keeps E .Electra hs) (Electra.process_attestation E a) := by
    intro s
    have r0 := (keepsPre E .Electra hs).refl s
    unfold Electra.process_attestation
    rw [wp_bind, wp_get, wp_bind, wp_liftM]
    refine ⟨fun c h1 => ?_, fun _ _ => r0⟩
    rw [wp_bind, wp_liftM]
    refine ⟨fun _ _ => ?_, fun _ _ => r0⟩
    rw [wp_bind, wp_liftM]
    refine ⟨fun delay _ => ?_, fun _ _ => r0⟩
    rw [wp_bind, wp_liftM]
    refine ⟨fun fl h2 => ?_, fun _ _ => r0⟩
    rw [wp_bind, wp_liftM]
    refine ⟨fun ix h3 => ?_, fun _ _ => r0⟩
    rw [wp_bind, wp_liftM]
    refine ⟨fun _ h4 => ?_, fun _ _ => r0⟩
    rw [wp_bind, wp_liftM]
    refine ⟨fun l h5 => ?_, fun _ _ => r0⟩
    simp only [Electra.get_indexed_attestation, run] at h3
    obtain ⟨l', h6, rfl⟩ := h3
    rw [h5] at h6; cases h6
    exact apply_flags_keeps hS hE (by decide) h1 h2 (valid_indexed_iff.1 h4)
  cases f
  case Phase0 => exact phase0_attestation_keeps
  case Electra => exact ele
  all_goals exact alt _ (by decide)

/-! ## Blocks -/

theorem operations_keeps {E : Env} (hS : SaneConfig E) (hE : VotesRemembered E) {f : Fork}
    {hs : List BeaconBlockHeader} {b : BeaconBlockBody} :
    Pres (Keeps E f hs) (process_operations E f b) := by
  have pre := keepsPre E f hs
  unfold process_operations
  walk pre [duty_keeps hE proposer_slashing_mod proposer_slashing_duty (by decide),
    duty_keeps hE attester_slashing_mod attester_slashing_duty (by decide),
    attestation_keeps hS hE,
    quiet_keeps hE deposit_mod (by decide) deposit_duty (mix_mod deposit_mod (by decide))
      deposit_blank,
    duty_keeps hE voluntary_exit_mod voluntary_exit_duty (by decide),
    duty_keeps hE bls_change_mod bls_change_duty (by decide),
    duty_keeps hE withdrawal_request_mod withdrawal_request_duty (by decide),
    quiet_keeps hE deposit_receipt_mod (by decide) deposit_receipt_duty
      (mix_mod deposit_receipt_mod (by decide)) deposit_receipt_blank,
    duty_keeps hE consolidation_mod consolidation_duty (by decide)]

theorem block_keeps {E : Env} (hS : SaneConfig E) (hE : VotesRemembered E) {f : Fork}
    {hs : List BeaconBlockHeader} {b : BeaconBlock} :
    Pres (Keeps E f hs) (process_block E f b) := by
  have pre := keepsPre E f hs
  unfold process_block
  walk pre [mod_keeps hE header_mod (by decide), mod_keeps hE block_payload_mod (by decide),
    quiet_keeps hE randao_mod (by decide) (duty_mod randao_mod (by decide)) randao_mix
      (blank_mod randao_mod (by decide)),
    mod_keeps hE eth1_mod (by decide), operations_keeps hS hE,
    mod_keeps hE sync_aggregate_mod (by decide)]

end Verif
