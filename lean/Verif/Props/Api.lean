import Verif.Proofs.ApiServed

/-! # C80: the requests of the client of the beacon API -/

namespace Verif.Props

open Client Json Text Net Spec.Beacon

/-- The calls whose requests do not say what the call is for: those whose path begins with `/`, which
replaces the path of the endpoint; those that send the indices of validators as numbers where the
standard has strings, or as a slice, which is not sent at all; and those with `None` for the blobs,
which is sent as `null`. -/
def Departs (e : Endpoint) : Call → Prop
  | .get_peer _ | .get_events => dir e.path ≠ ['/']
  | .post_liveness _ indices => indices ≠ []
  | .get_blob_sidecars _ indices => indices ≠ []
  | .post_signed_beacon_block_v2 _ kzg_proofs blobs _ _ => kzg_proofs = none ∨ blobs = none
  | _ => False

set_option maxHeartbeats 2000000 in
theorem served {E : Type} {e : Endpoint} (he : ValidEndpoint e) {c : Call} (hc : ValidCall c)
    (hd : ¬ Departs e c) :
    ∃ r, (c.request e : Except (Fail E) Request) = .ok r ∧ serve (base e) r = some (meaning c) := by
  cases c with
  | get_genesis_details => exact ⟨_, rfl, get_closed he 0 rfl (by decide) (by decide)⟩
  | get_state_root id =>
    exact ⟨_, rfl, get_open he 1 rfl (plain_state id) (read_state hc) (by decide)⟩
  | get_fork id =>
    exact ⟨_, rfl, get_open he 2 rfl (plain_state id) (read_state hc) (by decide)⟩
  | get_finality_checkpoints id =>
    exact ⟨_, rfl, get_open he 3 rfl (plain_state id) (read_state hc) (by decide)⟩
  | get_validators id ids filters => exact ⟨_, rfl, served_validators he hc⟩
  | get_validator id x => exact ⟨_, rfl, served_validator he hc.1 hc.2⟩
  | get_balances id ids => exact ⟨_, rfl, served_balances he hc⟩
  | get_all_committees id =>
    exact ⟨_, rfl, served_committees he (filter := {}) ⟨hc, by simp, by simp, by simp⟩⟩
  | get_committees id filter => exact ⟨_, rfl, served_committees he hc⟩
  | get_sync_committees id n =>
    exact ⟨_, rfl, served_state_number he hc.1 hc.2 8 rfl (by decide)⟩
  | get_randao id n => exact ⟨_, rfl, served_state_number he hc.1 hc.2 9 rfl (by decide)⟩
  | get_beacon_header_at_head => exact ⟨_, rfl, get_closed he 10 rfl (by decide) (by decide)⟩
  | get_beacon_header_for_slot n => exact ⟨_, rfl, served_header_slot he hc⟩
  | get_beacon_header_for_parent_root b => exact ⟨_, rfl, served_header_root he hc⟩
  | get_beacon_header id =>
    exact ⟨_, rfl, get_open he 11 rfl (plain_block id) (read_block hc) (by decide)⟩
  | post_signed_blinded_beacon_block j =>
    exact ⟨_, rfl, post_closed he 12 rfl (by decide) (by decide)⟩
  | post_signed_blinded_beacon_block_v2 j f v =>
    exact ⟨_, rfl, served_block he 13 rfl (by decide) (by decide)⟩
  | post_signed_beacon_block j => exact ⟨_, rfl, post_closed he 14 rfl (by decide) (by decide)⟩
  | post_signed_beacon_block_v2 j p b f v =>
    cases p with
    | none => exact absurd (.inl rfl) hd
    | some p =>
      cases b with
      | none => exact absurd (.inr rfl) hd
      | some b => exact ⟨_, rfl, served_block he 15 rfl (by decide) (by decide)⟩
  | get_beacon_block id =>
    exact ⟨_, rfl, get_open he 16 rfl (plain_block id) (read_block hc) (by decide)⟩
  | get_beacon_block_root id =>
    exact ⟨_, rfl, get_open he 17 rfl (plain_block id) (read_block hc) (by decide)⟩
  | get_attestations_from_beacon_block id =>
    exact ⟨_, rfl, get_open he 18 rfl (plain_block id) (read_block hc) (by decide)⟩
  | get_blob_sidecars id is =>
    cases is with
    | nil => exact ⟨_, rfl, get_open he 19 rfl (plain_block id) (read_block hc.1) (by decide)⟩
    | cons i is => exact absurd (by simp [Departs]) hd
  | get_deposit_snapshot => exact ⟨_, rfl, get_closed he 20 rfl (by decide) (by decide)⟩
  | get_blinded_block id =>
    exact ⟨_, rfl, get_open he 21 rfl (plain_block id) (read_block hc) (by decide)⟩
  | get_light_client_bootstrap b =>
    exact ⟨_, rfl, get_open he 22 rfl (plain_hex b) (read_hex hc) (by decide)⟩
  | get_light_client_updates a b => exact ⟨_, rfl, served_updates he hc.1 hc.2⟩
  | get_light_client_finality_update => exact ⟨_, rfl, get_closed he 24 rfl (by decide) (by decide)⟩
  | get_light_client_optimistic_update =>
    exact ⟨_, rfl, get_closed he 25 rfl (by decide) (by decide)⟩
  | get_attestations_from_pool a b => exact ⟨_, rfl, served_pool he hc.1 hc.2⟩
  | post_attestations js => exact ⟨_, rfl, post_closed he 27 rfl (by decide) (by decide)⟩
  | get_attester_slashings_from_pool => exact ⟨_, rfl, get_closed he 28 rfl (by decide) (by decide)⟩
  | post_attester_slashing j => exact ⟨_, rfl, post_closed he 29 rfl (by decide) (by decide)⟩
  | get_proposer_slashings_from_pool => exact ⟨_, rfl, get_closed he 30 rfl (by decide) (by decide)⟩
  | post_proposer_slashing j => exact ⟨_, rfl, post_closed he 31 rfl (by decide) (by decide)⟩
  | post_sync_committee_messages js => exact ⟨_, rfl, post_closed he 32 rfl (by decide) (by decide)⟩
  | get_voluntary_exits_from_pool => exact ⟨_, rfl, get_closed he 33 rfl (by decide) (by decide)⟩
  | post_signed_voluntary_exit j => exact ⟨_, rfl, post_closed he 34 rfl (by decide) (by decide)⟩
  | get_bls_to_execution_changes => exact ⟨_, rfl, get_closed he 35 rfl (by decide) (by decide)⟩
  | post_bls_to_execution_changes js =>
    exact ⟨_, rfl, post_closed he 36 rfl (by decide) (by decide)⟩
  | get_expected_withdrawals id n =>
    exact ⟨_, rfl, served_state_number he hc.1 hc.2 37 rfl (by decide)⟩
  | get_fork_schedule => exact ⟨_, rfl, get_closed he 38 rfl (by decide) (by decide)⟩
  | get_spec => exact ⟨_, rfl, get_closed he 39 rfl (by decide) (by decide)⟩
  | get_deposit_contract_address => exact ⟨_, rfl, get_closed he 40 rfl (by decide) (by decide)⟩
  | get_state id => exact ⟨_, rfl, get_open he 41 rfl (plain_state id) (read_state hc) (by decide)⟩
  | get_heads => exact ⟨_, rfl, get_closed he 42 rfl (by decide) (by decide)⟩
  | get_events => exact ⟨_, rfl, served_events he (not_not.1 hd)⟩
  | get_node_identity => exact ⟨_, rfl, get_closed he 44 rfl (by decide) (by decide)⟩
  | get_node_peers states directions => exact ⟨_, rfl, served_peers he⟩
  | get_peer id => exact ⟨_, rfl, served_peer he (not_not.1 hd) hc⟩
  | get_peer_summary => exact ⟨_, rfl, get_closed he 47 rfl (by decide) (by decide)⟩
  | get_node_version => exact ⟨_, rfl, get_closed he 48 rfl (by decide) (by decide)⟩
  | get_sync_status => exact ⟨_, rfl, get_closed he 49 rfl (by decide) (by decide)⟩
  | get_health => exact ⟨_, rfl, get_closed he 50 rfl (by decide) (by decide)⟩
  | get_attester_duties n is =>
    exact ⟨_, rfl, post_open he 51 rfl (plain_decimal n) (read_uint hc.1) hc.2 (by decide)⟩
  | get_proposer_duties n =>
    exact ⟨_, rfl, get_open he 52 rfl (plain_decimal n) (read_uint hc) (by decide)⟩
  | get_sync_committee_duties n is =>
    exact ⟨_, rfl, post_open he 53 rfl (plain_decimal n) (read_uint hc.1) hc.2 (by decide)⟩
  | get_block_proposal n reveal graffiti =>
    exact ⟨_, rfl, served_proposal he hc.1 hc.2.1 hc.2.2 54 rfl (by decide)⟩
  | get_blinded_block_proposal n reveal graffiti =>
    exact ⟨_, rfl, served_proposal he hc.1 hc.2.1 hc.2.2 55 rfl (by decide)⟩
  | get_attestation_data a b => exact ⟨_, rfl, served_attestation_data he hc.1 hc.2⟩
  | get_attestation_aggregate root n => exact ⟨_, rfl, served_aggregate he hc.1 hc.2⟩
  | post_aggregates_with_proofs js => exact ⟨_, rfl, post_closed he 58 rfl (by decide) (by decide)⟩
  | subscribe_subnets_for_attestation_committees js =>
    exact ⟨_, rfl, post_closed he 59 rfl (by decide) (by decide)⟩
  | subscribe_subnets_for_sync_committees js =>
    exact ⟨_, rfl, post_closed he 60 rfl (by decide) (by decide)⟩
  | get_sync_committee_contribution a b root =>
    exact ⟨_, rfl, served_contribution he hc.1 hc.2.1 hc.2.2⟩
  | post_sync_committee_contributions_with_proofs js =>
    exact ⟨_, rfl, post_closed he 62 rfl (by decide) (by decide)⟩
  | prepare_proposers js => exact ⟨_, rfl, post_closed he 63 rfl (by decide) (by decide)⟩
  | register_validators_with_builders js =>
    exact ⟨_, rfl, post_closed he 64 rfl (by decide) (by decide)⟩
  | post_liveness n is =>
    cases is with
    | nil =>
      exact ⟨_, rfl, post_open (is := []) he 65 rfl (plain_decimal n) (read_uint hc.1) (by simp)
        (by decide)⟩
    | cons i is => exact absurd (by simp [Departs]) hd

theorem not_served {E : Type} {e : Endpoint} (he : ValidEndpoint e) {c : Call} (hd : Departs e c)
    {r : Request} (hr : (c.request e : Except (Fail E) Request) = .ok r) :
    serve (base e) r ≠ some (meaning c) := by
  cases c <;> try exact absurd hd id
  case get_peer id => cases hr; rw [unserved_peer he hd]; simp
  case get_events => cases hr; rw [unserved_events he hd]; simp
  case get_blob_sidecars id is =>
    cases is with
    | nil => exact absurd rfl hd
    | cons i is => cases hr
  case post_liveness n is =>
    cases is with
    | nil => exact absurd rfl hd
    | cons i is => cases hr; rw [unserved_liveness he]; simp
  case post_signed_beacon_block_v2 j p b f v =>
    cases hr
    rw [served_block he 15 rfl (by decide) (by decide)]
    intro h
    simp only [meaning, submitSignedBeaconBlock, Option.some.injEq, Operation.mk.injEq,
      Body.json.injEq, Json.obj.injEq, List.cons.injEq, Prod.mk.injEq] at h
    rcases hd with rfl | rfl <;> simp at h

/-- **C80** The requests of the calls that do not depart are those that the standard has for them:
a server finds in the request the operation that the method is for, with the arguments of the call.
Exactly the calls that depart do not have such a request. -/
theorem C80_served_partial {E : Type} (e : Endpoint) (he : ValidEndpoint e) (c : Call)
    (hc : ValidCall c) :
    (∃ r, (c.request e : Except (Fail E) Request) = .ok r ∧
      serve (base e) r = some (meaning c)) ↔ ¬ Departs e c :=
  ⟨fun ⟨_, hr, hs⟩ hd => not_served he hd hr hs, served he hc⟩

/-- **C80** No request is sent for exactly the calls for blobs by their indices. -/
theorem C80_sent {E : Type} (e : Endpoint) (c : Call) :
    (∃ r, (c.request e : Except (Fail E) Request) = .ok r) ↔
      ∀ id indices, c = .get_blob_sidecars id indices → indices = [] := by
  constructor
  · rintro ⟨r, hr⟩ id is rfl
    cases is with
    | nil => rfl
    | cons i is => cases hr
  · intro h
    cases c
    case get_blob_sidecars id is =>
      cases h id is rfl
      exact ⟨_, rfl⟩
    all_goals exact ⟨_, rfl⟩

/-- **C80** Calls with the same request ask for the same operation with the same arguments. -/
theorem C80_injective {E : Type} (e : Endpoint) (he : ValidEndpoint e) (a b : Call)
    (ha : ValidCall a) (hb : ValidCall b) (da : ¬ Departs e a) (db : ¬ Departs e b)
    (h : (a.request e : Except (Fail E) Request) = b.request e) : meaning a = meaning b := by
  obtain ⟨r, hr, hs⟩ := (C80_served_partial (E := E) e he a ha).2 da
  obtain ⟨r', hr', hs'⟩ := (C80_served_partial (E := E) e he b hb).2 db
  rw [h, hr'] at hr
  cases hr
  exact Option.some.inj (hs.symm.trans hs')

/-- **C80** The API is expected at the URL of the endpoint exactly if its path ends with `/`. -/
theorem C80_base (e : Endpoint) :
    base e = e.origin ++ e.path ↔ e.path.getLast?.all (· == '/') = true := by
  unfold base
  rw [List.append_cancel_left_eq]
  unfold dir
  rw [List.reverse_eq_iff, ← List.head?_reverse]
  cases e.path.reverse with
  | nil => simp
  | cons c t =>
    by_cases hc : c = '/'
    · subst hc; simp
    · have h1 : List.dropWhile (· != '/') t ≠ c :: t := by
        intro h
        have := (List.dropWhile_sublist (· != '/') (l := t)).length_le
        rw [h] at this
        simp at this
      simp [h1, hc]

/-- **C80** The indices of `post_liveness` are not understood, whatever they are. -/
theorem C80_liveness_refused {E : Type} (e : Endpoint) (he : ValidEndpoint e) (epoch i : Nat)
    (is : List Nat) :
    ∃ r, ((Call.post_liveness epoch (i :: is)).request e : Except (Fail E) Request) = .ok r ∧
      serve (base e) r = none := ⟨_, rfl, unserved_liveness he⟩

/-- **C80** `get_peer` and `get_events` do not reach an API that is not at the root of its server. -/
theorem C80_outside {E : Type} (e : Endpoint) (he : ValidEndpoint e) (hd : dir e.path ≠ ['/'])
    (id : PeerId) :
    (∃ r, ((Call.get_peer id).request e : Except (Fail E) Request) = .ok r ∧
      serve (base e) r = none) ∧
    (∃ r, (Call.get_events.request e : Except (Fail E) Request) = .ok r ∧
      serve (base e) r = none) :=
  ⟨⟨_, rfl, unserved_peer he hd id⟩, ⟨_, rfl, unserved_events he hd⟩⟩

/-! ## Examples -/

/-- A node below a path of its server -/
def sampleEndpoint : Endpoint := { origin := "http://node:5052".toList, path := "/beacon/".toList }

example : ValidEndpoint sampleEndpoint := by unfold ValidEndpoint; decide

/-- Validators by key and index, and by status -/
def sampleCall : Call :=
  .get_validators (.Slot 12) [.Index 7, .PublicKey (List.replicate 48 0xab)]
    [.ActiveOngoing, .Pending]

example : ValidCall sampleCall ∧ ¬ Departs sampleEndpoint sampleCall := by
  refine ⟨⟨show 12 < 2 ^ 64 by omega, ?_⟩, id⟩
  intro x hx
  simp only [List.mem_cons, List.not_mem_nil, or_false] at hx
  rcases hx with rfl | rfl
  · show 7 < 2 ^ 64; omega
  · rfl

example :
    ((Call.get_validators (.Slot 12) [.Index 7, .Index 9] [.Pending]).request sampleEndpoint :
      Except (Fail Unit) Request).toOption.map (·.url) = some
    "http://node:5052/beacon/eth/v1/beacon/states/12/validators?id=7%2C9&status=pending".toList := by
  decide +kernel

/-- The prefix of the endpoint is dropped. -/
example : (Call.get_events.request sampleEndpoint : Except (Fail Unit) Request).toOption.map (·.url) =
    some "http://node:5052/eth/v1/events?topics=payload_attributes".toList ∧
    dir sampleEndpoint.path ≠ ['/'] := by decide +kernel

/-- Without its last `/`, so is the last part of the path of the endpoint. -/
example : base { sampleEndpoint with path := "/beacon".toList } = "http://node:5052/".toList ∧
    base sampleEndpoint = "http://node:5052/beacon/".toList := by decide +kernel

/-- The two methods for committees share a request: they ask for the same. -/
example : meaning (.get_all_committees .Head) = meaning (.get_committees .Head {}) := rfl

/-- Other calls differ. -/
example : meaning (.get_randao .Head none) ≠ meaning (.get_sync_committees .Head none) := by
  intro h; exact absurd (congrArg Operation.name h) (by decide)

end Verif.Props
