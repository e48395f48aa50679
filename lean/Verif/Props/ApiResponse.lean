import Verif.Proofs.ApiResponse
import Verif.Props.Json

/-! # C81: how the client of the beacon API reads answers -/

namespace Verif.Props

open Client Json Text Spec Spec.Beacon

/-- The forks that the client's types know: all before Electra, and for blinded blocks those with
payloads -/
def KnownFork (K : Consts) (F : Foreign) : (c : Call) → (c.want K F).Val → Prop
  | .get_beacon_block _, v => v.1 ≠ .Electra
  | .get_state _, v => v.1 ≠ .Electra
  | .get_block_proposal _ _ _, v => v.1 ≠ .Electra
  | .get_blinded_block _, v => v.1 ∈ [.Bellatrix, .Capella, .Deneb]
  | .get_blinded_block_proposal _ _ _, v => v.1 ∈ [.Bellatrix, .Capella, .Deneb]
  | _, _ => True

/-- The calls that read something other than what the standard has the server answer: a string where it
has `{"randao": …}`; one header where it has an array of headers; an object where it has an array of
updates; a number where it has a string, in the updates for light clients; a block where it has a block
with its blobs, since Deneb. -/
def Misreads (K : Consts) (F : Foreign) : (c : Call) → (c.want K F).Val → Prop
  | .get_randao _ _, _ => True
  | .get_beacon_header_at_head, _ => True
  | .get_beacon_header_for_slot _, _ => True
  | .get_beacon_header_for_parent_root _, _ => True
  | .get_light_client_updates _ _, _ => True
  | .get_light_client_finality_update, _ => True
  | .get_light_client_optimistic_update, _ => True
  | .get_block_proposal _ _ _, v => v.1 = .Deneb ∨ v.1 = .Electra
  | _, _ => False

theorem fork_dec {K : Consts} {E : ForkEnum} (hE : E ∈ forkEnums K) {v : Versioned E.schema}
    (hf : v.1 ∈ E.order) (j : Json) (h1 : Extends j ((E.schema v.1).enc v.2))
    (h2 : Extends ((E.schema v.1).enc v.2) j) : Versioned.dec E.order E.schema j = some v :=
  C73_forks_partial K E hE v.1 hf v.2 j h1 h2

set_option maxRecDepth 4000 in
/-- **C81** Every method returns the value that the server answers with, whatever else the answer has.
Missing: the methods in `Misreads`, and blocks and states of forks that the client's types do not
know. -/
theorem C81_read_partial (K : Consts) (F : Foreign) (c : Call) (v : (c.want K F).Val) (r : Response)
    (hk : KnownFork K F c v) (hm : ¬ Misreads K F c v) (h : Answers K F c v r) :
    c.read K F r = .ok v := by
  cases c with
  | get_genesis_details => exact read_data rfl h
  | get_state_root id => exact read_member rfl h
  | get_fork id => exact read_data rfl h
  | get_finality_checkpoints id => exact read_data rfl h
  | get_validators id a b => exact read_list rfl h
  | get_validator id a => exact read_data rfl h
  | get_balances id a => exact read_list rfl h
  | get_all_committees id => exact read_list rfl h
  | get_committees id a => exact read_list rfl h
  | get_sync_committees id a => exact read_data rfl h
  | get_randao id a => exact absurd trivial hm
  | get_beacon_header_at_head => exact absurd trivial hm
  | get_beacon_header_for_slot n => exact absurd trivial hm
  | get_beacon_header_for_parent_root b => exact absurd trivial hm
  | get_beacon_header id => exact read_data rfl h
  | post_signed_blinded_beacon_block j => exact if_pos h
  | post_signed_blinded_beacon_block_v2 j f b => exact if_pos h
  | post_signed_beacon_block j => exact if_pos h
  | post_signed_beacon_block_v2 j p b f d => exact if_pos h
  | get_beacon_block id =>
    exact read_fork (fork_dec (K := K) (by simp [forkEnums])
      ((C73_variants K _ (by simp [forkEnums]) _).2 ⟨hk, by simp [Json.SignedBeaconBlock]⟩)) h
  | get_beacon_block_root id => exact read_member rfl h
  | get_attestations_from_beacon_block id => exact read_list rfl h
  | get_blob_sidecars id a => exact read_list rfl h
  | get_deposit_snapshot => exact read_data rfl h
  | get_blinded_block id =>
    refine read_fork (fork_dec (K := K) (by simp [forkEnums]) ?_) h
    have : v.1 ∈ [Fork.Bellatrix, .Capella, .Deneb] := hk
    simp only [List.mem_cons, List.not_mem_nil, or_false] at this
    rcases this with e | e | e <;> rw [e] <;> simp [Json.SignedBlindedBeaconBlock]
  | get_light_client_bootstrap b => exact read_data rfl h
  | get_light_client_updates a b => exact absurd trivial hm
  | get_light_client_finality_update => exact absurd trivial hm
  | get_light_client_optimistic_update => exact absurd trivial hm
  | get_attestations_from_pool a b => exact read_list rfl h
  | post_attestations a => exact if_pos (.inl h)
  | get_attester_slashings_from_pool => exact read_list rfl h
  | post_attester_slashing a => exact if_pos (.inl h)
  | get_proposer_slashings_from_pool => exact read_list rfl h
  | post_proposer_slashing a => exact if_pos (.inl h)
  | post_sync_committee_messages a => exact if_pos (.inl h)
  | get_voluntary_exits_from_pool => exact read_list rfl h
  | post_signed_voluntary_exit a => exact if_pos (.inl h)
  | get_bls_to_execution_changes => exact read_list rfl h
  | post_bls_to_execution_changes a => exact if_pos (.inl h)
  | get_expected_withdrawals id a => exact read_list rfl h
  | get_fork_schedule => exact read_list rfl h
  | get_spec => exact read_texts h
  | get_deposit_contract_address => exact read_data rfl h
  | get_state id =>
    exact read_fork (fork_dec (K := K) (by simp [forkEnums])
      ((C73_variants K _ (by simp [forkEnums]) _).2 ⟨hk, by simp [Json.BeaconState]⟩)) h
  | get_heads => exact read_heads h
  | get_events => rfl
  | get_node_identity =>
    obtain ⟨ms, j, hs, hj, he⟩ := h
    exact read_in hs hj he
  | get_node_peers a b => exact read_in_list h
  | get_peer id =>
    obtain ⟨ms, j, hs, hj, he⟩ := h
    exact read_in hs hj he
  | get_peer_summary => exact read_data rfl h
  | get_node_version => exact read_member rfl h
  | get_sync_status => exact read_data rfl h
  | get_health =>
    change HealthStatus at v
    show Except.ok (health r) = Except.ok v
    unfold health
    cases v with
    | Ready =>
      have h : r.status = 200 := h
      simp [h]
    | Syncing =>
      have h : r.status = 206 := h
      simp [h]
    | NotInitialized =>
      have h : r.status = 503 := h
      simp [h]
    | Unknown =>
      have h : r.status ∉ [200, 206, 503] := h
      simp only [List.mem_cons, List.not_mem_nil, or_false, not_or] at h
      rw [if_neg h.1, if_neg h.2.1, if_neg h.2.2]
  | get_attester_duties n a => exact read_checked_rooted rfl h
  | get_proposer_duties n => exact read_rooted rfl h
  | get_sync_committee_duties n a => exact read_checked rfl h
  | get_block_proposal n a b =>
    refine read_fork (fork_dec (K := K) (by simp [forkEnums])
      ((C73_variants K _ (by simp [forkEnums]) _).2 ⟨hk, by simp [Json.BeaconBlock]⟩)) ?_
    change if v.1 = Fork.Deneb ∨ v.1 = Fork.Electra then DataOfContents (Json.BeaconBlock K) v r
      else DataOfFork (Json.BeaconBlock K) v r at h
    change ¬ (v.1 = Fork.Deneb ∨ v.1 = Fork.Electra) at hm
    rwa [if_neg hm] at h
  | get_blinded_block_proposal n a b =>
    refine read_fork (fork_dec (K := K) (by simp [forkEnums]) ?_) h
    have : v.1 ∈ [Fork.Bellatrix, .Capella, .Deneb] := hk
    simp only [List.mem_cons, List.not_mem_nil, or_false] at this
    rcases this with e | e | e <;> rw [e] <;> simp [Json.BlindedBeaconBlock]
  | get_attestation_data a b => exact read_data rfl h
  | get_attestation_aggregate a b => exact read_data rfl h
  | post_aggregates_with_proofs a => exact if_pos (.inl h)
  | subscribe_subnets_for_attestation_committees a => exact if_pos (.inl h)
  | subscribe_subnets_for_sync_committees a => exact if_pos (.inl h)
  | get_sync_committee_contribution a b d => exact read_data rfl h
  | post_sync_committee_contributions_with_proofs a => exact if_pos (.inl h)
  | prepare_proposers a => exact if_pos (.inl h)
  | register_validators_with_builders a => exact if_pos (.inl h)
  | post_liveness a b => exact read_list rfl h

/-! ## Where the code departs from the standard -/

theorem record_arr_short {fs : Fields} {x : Json} {src : Source} {n m : String} {s t : Schema}
    {rest : Fields} (h : fs = .cons n s (.cons m t rest)) :
    (Schema.record fs).dec src (.arr [x]) = none := by
  subst h
  unfold Schema.dec Fields.decArr
  cases s.dec src x with
  | none => rfl
  | some v =>
    simp only [Option.bind_eq_bind, Option.bind_some]
    unfold Fields.decArr
    rfl

theorem header_array {K : Consts} {v : (api.BeaconHeaderSummary K).Val} {r : Response}
    (h : DataList header ⟨[v], rfl⟩ r) (w : (api.BeaconHeaderSummary K).Val) :
    (Want.data (.of (api.BeaconHeaderSummary K))).read r ≠ .ok w := by
  obtain ⟨ms, js, hs, hj, he⟩ := h
  cases he with
  | cons _ h2 =>
    cases h2
    exact refuse_in (c := .of (api.BeaconHeaderSummary K)) hs hj (record_arr_short rfl) w

theorem update_slot {K : Consts} {s : Schema} (hs : s ∈ [altair.LightClientUpdate K,
      altair.LightClientFinalityUpdate K, altair.LightClientOptimisticUpdate K]) {r : Response}
    (h : ∃ ms j, Success r ms ∧ lookup "data" ms = some j ∧ IsUpdate j) (w : s.Val) :
    (Want.data (.of s)).read r ≠ .ok w := by
  obtain ⟨ms, j, hr, hj, ns, slot, rfl, ht⟩ := h
  refine refuse_in (c := .of s) hr hj (C72_string_slot_refused K s ?_ .borrowed ns _ ht) w
  simp only [List.mem_cons, List.not_mem_nil, or_false] at hs ⊢
  rcases hs with h | h | h <;> simp [h]

theorem contents_refused {K : Consts} (j proofs blobs : Json) :
    Versioned.dec (Json.BeaconBlock K).order (Json.BeaconBlock K).schema
      (.obj [("block", j), ("kzg_proofs", proofs), ("blobs", blobs)]) = none := by
  unfold Versioned.dec
  rw [List.findSome?_eq_none_iff]
  intro f _
  have key : ∀ fs : Fields, ∀ s rest, fs = .cons "slot" s rest →
      (Schema.record fs).dec .borrowed
        (.obj [("block", j), ("kzg_proofs", proofs), ("blobs", blobs)]) = none := by
    rintro fs s rest rfl
    unfold Schema.dec Fields.decObj
    rfl
  have : ((Json.BeaconBlock K).schema f).dec .borrowed
      (.obj [("block", j), ("kzg_proofs", proofs), ("blobs", blobs)]) = none := by
    cases f <;> exact key _ _ _ rfl
  rw [this]
  rfl

/-- **C81**, where the code departs from it: the methods in `Misreads` return an error for every answer
that the standard has. -/
theorem C81_misread (K : Consts) (F : Foreign) (c : Call) (v : (c.want K F).Val) (r : Response)
    (hm : Misreads K F c v) (h : Answers K F c v r) (w : (c.want K F).Val) :
    c.read K F r ≠ .ok w := by
  cases c with
  | get_randao id a =>
    obtain ⟨ms, ns, j, hs, hj, _⟩ := h
    exact refuse_in (c := .of (.bytes 32)) hs hj rfl w
  | get_beacon_header_at_head => exact header_array h w
  | get_beacon_header_for_slot n => exact header_array h w
  | get_beacon_header_for_parent_root b => exact header_array h w
  | get_light_client_updates a b =>
    obtain ⟨js, _, hb, _⟩ := h
    show Except.map _ (get (value (.many (altair.LightClientUpdate K))) r) ≠ _
    intro h
    cases hg : get (value (.many (altair.LightClientUpdate K))) r with
    | error e => rw [hg] at h; cases h
    | ok x => exact get_not_ok hb rfl x hg
  | get_light_client_finality_update => exact update_slot (K := K) (by simp) h w
  | get_light_client_optimistic_update => exact update_slot (K := K) (by simp) h w
  | get_block_proposal n a b =>
    change v.1 = Fork.Deneb ∨ v.1 = Fork.Electra at hm
    change if v.1 = Fork.Deneb ∨ v.1 = Fork.Electra then DataOfContents (Json.BeaconBlock K) v r
      else DataOfFork (Json.BeaconBlock K) v r at h
    rw [if_pos hm] at h
    obtain ⟨ms, j, proofs, blobs, hs, _, hj, _⟩ := h
    show Except.map _ (get (versioned_value (.forks (Json.BeaconBlock K))) r) ≠ _
    intro h
    cases hg : get (versioned_value (.forks (Json.BeaconBlock K))) r with
    | error e => rw [hg] at h; cases h
    | ok x =>
      refine get_not_ok hs.2 ?_ x hg
      simp only [versioned_value, hj, Option.bind_some, contents_refused]
      cases (lookup "version" ms).bind (api.Fork.dec .borrowed) <;> rfl
  | _ => exact absurd hm (by intro h; cases h)

/-- **C81**, where the code departs from it: nothing compares the block or state with the fork that the
answer names for it, so an answer that names another fork is read the same. -/
theorem C81_version_ignored (K : Consts) (F : Foreign) (E : ForkEnum) (c : Call)
    (hc : c.want K F = .versioned (.forks E)) (status : Nat) (f g : Fork) (j : Json) :
    c.read K F ⟨status, some (.obj [("version", .str (forkName f).toList), ("data", j)])⟩ =
      c.read K F ⟨status, some (.obj [("version", .str (forkName g).toList), ("data", j)])⟩ := by
  unfold Call.read
  rw [hc]
  obtain ⟨x, hx⟩ := read_version f
  obtain ⟨y, hy⟩ := read_version g
  cases hd : Versioned.dec E.order E.schema j with
  | some v =>
    have key : ∀ (f : Fork) (x : api.Fork.Val),
        api.Fork.dec .borrowed (.str (forkName f).toList) = some x →
        (Want.versioned (.forks E)).read
          ⟨status, some (.obj [("version", .str (forkName f).toList), ("data", j)])⟩ = .ok v := by
      intro f x hx
      simp only [Want.read]
      rw [get_value (v := (x, v)) rfl]
      · rfl
      · simp [versioned_value, lookup, hx, hd]
    rw [key f x hx, key g y hy]
  | none =>
    have key : ∀ f : Fork, (Want.versioned (.forks E)).read
        ⟨status, some (.obj [("version", .str (forkName f).toList), ("data", j)])⟩ =
          .error .Http := by
      intro f
      obtain ⟨x, hx⟩ := read_version f
      simp only [Want.read]
      rw [get_http rfl (by simp [versioned_value, lookup, hx, hd]) rfl]
      rfl
    rw [key f, key g]

/-! ## Errors, and what a result rests on -/

/-- **C81** An error that the server reports is returned by every method that reads the body, with its
code, its message and the items of the request that it is about. -/
theorem C81_error (K : Consts) (F : Foreign) (c : Call) (hh : c ≠ .get_health)
    (he : c ≠ .get_events) (e : ApiError) (r : Response) (h1 : r.status ≠ 200) (h2 : r.status ≠ 202)
    (h : Reports e r) : c.read K F r = .error (.Api e) := by
  refine read_error ?_ ?_ h1 h2 h
  · cases c with
    | get_health => exact absurd rfl hh
    | _ => intro h; cases h
  · cases c with
    | get_events => exact absurd rfl he
    | _ => intro h; cases h

/-- The methods that return nothing but whether the request was accepted -/
def Submits : Call → Prop
  | .post_signed_blinded_beacon_block _ | .post_signed_blinded_beacon_block_v2 _ _ _
  | .post_signed_beacon_block _ | .post_signed_beacon_block_v2 _ _ _ _ _
  | .post_attestations _ | .post_attester_slashing _ | .post_proposer_slashing _
  | .post_sync_committee_messages _ | .post_signed_voluntary_exit _
  | .post_bls_to_execution_changes _ | .post_aggregates_with_proofs _
  | .subscribe_subnets_for_attestation_committees _ | .subscribe_subnets_for_sync_committees _
  | .post_sync_committee_contributions_with_proofs _ | .prepare_proposers _
  | .register_validators_with_builders _ => True
  | _ => False

theorem done_iff {r : Response} : (∃ u, (Want.done).read r = .ok u) ↔
    r.status = 200 ∨ r.status = 202 := by
  simp only [Want.read, api_error_or_ok]
  split
  · rename_i h
    exact ⟨fun _ => h, fun _ => ⟨(), rfl⟩⟩
  · rename_i h
    refine ⟨fun ⟨u, hu⟩ => ?_, fun h' => absurd h' h⟩
    cases hj : r.json ApiError.dec with
    | error e => rw [hj] at hu; cases hu
    | ok x => rw [hj] at hu; cases hu

/-- **C81** A submission is taken as accepted just if the server answers with 200 or 202. -/
theorem C81_accepted (K : Consts) (F : Foreign) (c : Call) (hc : Submits c) (r : Response) :
    (∃ u, c.read K F r = .ok u) ↔ r.status = 200 ∨ r.status = 202 := by
  cases c with
  | post_signed_blinded_beacon_block => exact done_iff
  | post_signed_blinded_beacon_block_v2 => exact done_iff
  | post_signed_beacon_block => exact done_iff
  | post_signed_beacon_block_v2 => exact done_iff
  | post_attestations => exact done_iff
  | post_attester_slashing => exact done_iff
  | post_proposer_slashing => exact done_iff
  | post_sync_committee_messages => exact done_iff
  | post_signed_voluntary_exit => exact done_iff
  | post_bls_to_execution_changes => exact done_iff
  | post_aggregates_with_proofs => exact done_iff
  | subscribe_subnets_for_attestation_committees => exact done_iff
  | subscribe_subnets_for_sync_committees => exact done_iff
  | post_sync_committee_contributions_with_proofs => exact done_iff
  | prepare_proposers => exact done_iff
  | register_validators_with_builders => exact done_iff
  | _ => exact absurd hc (by intro h; cases h)

/-- **C81** No error of the server is made up: the body has its code and its message. -/
theorem C81_error_said (K : Consts) (F : Foreign) (c : Call) (e : ApiError) (r : Response)
    (h : c.read K F r = .error (.Api e)) :
    ∃ ms, r.body = some (.obj ms) ∧ ∃ code message,
      (e = .ErrorMessage code message ∨ ∃ failures, e = .IndexedError code message failures) ∧
      lookup "code" ms = some (.num code) ∧ lookup "message" ms = some (.str message) := by
  obtain ⟨j, hb, he⟩ := read_error_inv h
  obtain ⟨ms, rfl, hm⟩ := error_said he
  cases e with
  | ErrorMessage code message => exact ⟨ms, hb, code, message, .inl rfl, hm.1, hm.2⟩
  | IndexedError code message failures => exact ⟨ms, hb, code, message, .inr ⟨_, rfl⟩, hm.1, hm.2⟩

/-- **C81** Nor is a value: the methods that return one find it in an object with a member `data`. -/
theorem C81_data (K : Consts) (F : Foreign) (c : Call) (hs : ¬ Submits c) (hh : c ≠ .get_health)
    (he : c ≠ .get_events) (r : Response) (v : (c.want K F).Val) (h : c.read K F r = .ok v) :
    ∃ ms d, r.body = some (.obj ms) ∧ lookup "data" ms = some d := by
  refine read_data_inv h ?_ ?_ ?_
  · cases c with
    | get_health => intro h; cases h
    | _ => first | exact absurd trivial hs | (intro h; cases h)
  · cases c with
    | get_health => exact absurd rfl hh
    | _ => intro h; cases h
  · cases c with
    | get_events => exact absurd rfl he
    | _ => intro h; cases h

/-- **C81** And it is all there: the value is a function of that member, and of the member
`dependent_root` for the duties. Neither the status nor any other member of the body has a part in it. -/
theorem C81_from_data (K : Consts) (F : Foreign) (c : Call) (hs : ¬ Submits c) (hh : c ≠ .get_health)
    (r r' : Response) (v v' : (c.want K F).Val) (h : c.read K F r = .ok v)
    (h' : c.read K F r' = .ok v')
    (hm : ∀ ms ms', r.body = some (.obj ms) → r'.body = some (.obj ms') →
      lookup "data" ms = lookup "data" ms' ∧
        lookup "dependent_root" ms = lookup "dependent_root" ms') :
    v = v' := by
  by_cases he : c = .get_events
  · subst he; rfl
  have h1 : c.want K F ≠ .done := by
    cases c with
    | get_health => intro h; cases h
    | _ => first | exact absurd trivial hs | (intro h; cases h)
  have h2 : c.want K F ≠ .health := by
    cases c with
    | get_health => exact absurd rfl hh
    | _ => intro h; cases h
  have h3 : c.want K F ≠ .stream := by
    cases c with
    | get_events => exact absurd rfl he
    | _ => intro h; cases h
  obtain ⟨ms, d, hb, hl, ht⟩ := read_taken h h1 h2 h3
  obtain ⟨ms', d', hb', hl', ht'⟩ := read_taken h' h1 h2 h3
  obtain ⟨e1, e2⟩ := hm ms ms' hb hb'
  rw [hl, hl'] at e1
  cases e1
  rw [e2, ht'] at ht
  cases ht
  rfl

/-- The methods that look at the status of the answer -/
def Checks : Call → Prop
  | .get_health | .get_attester_duties _ _ | .get_sync_committee_duties _ _ => True
  | c => Submits c

/-- **C81** The other methods do not look at the status: they return the same for every status, so an
error is known only by its body. -/
theorem C81_status_ignored (K : Consts) (F : Foreign) (c : Call) (hc : ¬ Checks c) (r : Response)
    (n : Nat) : c.read K F { r with status := n } = c.read K F r := by
  cases c with
  | get_health => exact absurd trivial hc
  | get_attester_duties => exact absurd trivial hc
  | get_sync_committee_duties => exact absurd trivial hc
  | _ => first | rfl | exact absurd trivial hc

/-- **C81** Duties without the dependent root are not returned. -/
theorem C81_dependent_root (K : Consts) (F : Foreign) (epoch : Nat)
    (v : (Schema.seq .any proposerDuty).Val) (ms : List (String × Json)) (js : List Json)
    (hj : lookup "data" ms = some (.arr js))
    (hv : List.Forall₂ (fun j x => Extends j (proposerDuty.enc x)) js v.val)
    (hr : lookup "dependent_root" ms = none) (n : Nat) :
    (Call.get_proposer_duties epoch).read K F ⟨n, some (.obj ms)⟩ = .error .MissingExpectedData := by
  show (do dependent_root (← get (value (.many (api.ProposerDuty K))) _)) = _
  rw [get_value rfl (value_of (c := .many (api.ProposerDuty K)) hj
    (dec_of (s := .seq .any (api.ProposerDuty K)) rfl (extends_list hv)))]
  show dependent_root _ = _
  simp only [dependent_root]
  rw [if_neg (by decide)]
  split
  · rfl
  · rename_i h
    rw [hr] at h
    cases h

/-! ## Examples -/

section Examples

/-- no types of other libraries -/
def noForeign : Foreign := ⟨⟨Unit, fun _ => none⟩, ⟨Unit, fun _ => none⟩⟩

/-- a successful answer -/
def syncAnswer : Response := ⟨200, some (.obj [("data", .obj [("head_slot", .str ['7']),
  ("sync_distance", .str ['0']), ("is_syncing", .bool false), ("el_offline", .bool false)])])⟩

example (K : Consts) : Answers K noForeign .get_sync_status (7, 0, false, ()) syncAnswer := by
  have h7 : decimal ((7 : Fin (2 ^ 64)) : Nat) = ['7'] := by decide +kernel
  have h0 : decimal ((0 : Fin (2 ^ 64)) : Nat) = ['0'] := by decide +kernel
  refine ⟨_, _, ⟨rfl, rfl⟩, rfl, .obj (fun name => if name = "head_slot" then .str ['7']
    else if name = "sync_distance" then .str ['0'] else .bool false) ?_ ?_⟩
  · intro name x h
    simp only [Fields.of, Fields.enc, Schema.enc, lookup] at h
    split at h
    · rename_i e; subst e; rfl
    · split at h
      · rename_i e; subst e; rfl
      · split at h
        · rename_i e; subst e; rfl
        · cases h
  · intro name x h
    simp only [Fields.of, Fields.enc, Schema.enc, lookup] at h
    split at h
    · rename_i e; subst e; cases h; rw [if_pos rfl, h7]; exact .refl _
    · split at h
      · rename_i e; subst e; cases h; rw [if_neg (by decide), if_pos rfl, h0]; exact .refl _
      · split at h
        · rename_i e; subst e; cases h; exact .refl _
        · cases h

example (K : Consts) : (Call.get_sync_status).read K noForeign syncAnswer = .ok (7, 0, false, ()) :=
  rfl

/-- the same data in another answer -/
example (K : Consts) : ∃ r : Response, r ≠ syncAnswer ∧
    (Call.get_sync_status).read K noForeign r = .ok (7, 0, false, ()) :=
  ⟨⟨500, some (.obj [("code", .num 500), ("data", .obj [("head_slot", .str ['7']),
    ("sync_distance", .str ['0']), ("is_syncing", .bool false), ("el_offline", .bool false)])])⟩,
    by intro h; injection h with h; exact absurd h (by decide), rfl⟩

/-- an error with the items that failed -/
def errorAnswer : Response := ⟨400, some (.obj [("code", .num 400), ("message", .str "some failures".toList),
  ("failures", .arr [.obj [("index", .num 3), ("message", .str "invalid signature".toList)]])])⟩

example : Reports (.IndexedError 400 "some failures".toList [(3, "invalid signature".toList, ())])
    errorAnswer :=
  ⟨_, _, ⟨by decide, by decide, rfl, rfl, rfl, rfl⟩, rfl,
    .cons ⟨_, rfl, rfl, rfl⟩ .nil⟩

example (K : Consts) : ∃ v, Misreads K noForeign (.get_randao .Head none) v ∧
    Answers K noForeign (.get_randao .Head none) v ⟨200, some (.obj [("data", .obj [("randao",
      (Schema.bytes 32).enc v)])])⟩ :=
  ⟨⟨List.replicate 32 0, rfl⟩, trivial, _, _, _, ⟨rfl, rfl⟩, rfl, rfl, .refl _⟩

example (K : Consts) (F : Foreign) (id : BlockId) :
    (Call.get_beacon_block id).want K F = .versioned (.forks (Json.SignedBeaconBlock K)) := rfl

example : Submits (.post_attestations []) := trivial

end Examples

end Verif.Props
