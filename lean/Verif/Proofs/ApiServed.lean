import Verif.Proofs.ApiCalls
import Verif.Props.PeerId

/-! # What the operation of each call is -/

namespace Verif.Spec.Beacon

open Client Json Text Net

/-- A call with a state id and an optional number -/
theorem served_state_number {e : Endpoint} (he : ValidEndpoint e) {tail name : String}
    {id : StateId} (hid : ValidState id) {n : Option Nat} (hn : ∀ x ∈ n, x < 2 ^ 64)
    {head : String} (i : Nat) {route : Route} (hi : routes[i]? = some route)
    (hc : decide (framed head tail = true ∧ head.toList.head? = some 'e' ∧ route.method = .GET ∧
      route.segs = shape head tail ∧ route.params = [.stateId] ∧ route.versioned = false ∧
      route.body = .nothing ∧ route.query = [(name, .uint64, .optional)] ∧
      knows route name .uint64 .optional = true) = true) :
    serve (base e) ((http_get e (path3 head id.display tail)).query? name (n.map decimal)) =
      some { name := route.name, path := [.stateId id], query := opt name (n.map .uint64) } := by
  obtain ⟨h1, h2, h3, h4, h5, h6, h7, h8, h9⟩ := of_decide_eq_true hc
  have h := (sent_get_open (route := route) he (plain_state id) h1 h2).maybe
    (x := n) .optional h9 (by simp) (fun a _ => plain_decimal a) (fun a ha => read_uint (hn a ha))
  refine h.open i hi (plain_state id) (read_state hid) ?_ rfl (by rw [h7]; rfl) ?_
  · refine complete_sublist ?_ (by simp [h8])
    rw [h8]; exact opt_names _ _
  · simp [h1, h4, h5, h6, h3]

theorem served_committees {e : Endpoint} (he : ValidEndpoint e) {id : StateId}
    {filter : CommitteeFilter} (h : ValidCall (.get_committees id filter)) :
    serve (base e) (committees_request e id filter) = some (meaning (.get_committees id filter)) := by
  obtain ⟨hid, h1, h2, h3⟩ := h
  have h := (((sent_get_open (route := routes[7]) he (head := "eth/v1/beacon/states/")
    (tail := "/committees") (plain_state id) (by decide) (by decide)).maybe
    (name := "epoch") (kind := .uint64) (x := filter.epoch) .optional (by decide) (by simp)
      (fun a _ => plain_decimal a) (fun a ha => read_uint (h1 a ha))).maybe
    (name := "index") (kind := .uint64) (x := filter.index) .optional (by decide) (by simp)
      (fun a _ => plain_decimal a) (fun a ha => read_uint (h2 a ha))).maybe
    (name := "slot") (kind := .uint64) (x := filter.slot) .optional (by decide) (by simp)
      (fun a _ => plain_decimal a) (fun a ha => read_uint (h3 a ha))
  refine h.open 7 rfl (plain_state id) (read_state hid) ?_ rfl rfl (by decide)
  refine complete_sublist ?_ (by decide)
  simp only [List.map_append]
  exact ((((List.Sublist.refl []).append (opt_names _ _)).append (opt_names _ _)).append
    (opt_names _ _))

theorem served_validators {e : Endpoint} (he : ValidEndpoint e) {id : StateId}
    {ids : List PublicKeyOrIndex} {filters : List ValidatorStatus}
    (h : ValidCall (.get_validators id ids filters)) :
    serve (base e) (((http_get e (path3 "eth/v1/beacon/states/" id.display "/validators")).queryList
      "id" (ids.map PublicKeyOrIndex.display)).queryList
      "status" (filters.map fun f => f.display.toList)) =
    some (meaning (.get_validators id ids filters)) := by
  obtain ⟨hid, h1⟩ := h
  have h := ((sent_get_open (route := routes[4]) he (head := "eth/v1/beacon/states/")
    (tail := "/validators") (plain_state id) (by decide) (by decide)).list
    (name := "id") (kind := .validatorId) (xs := ids) (by decide)
      (fun a _ => plain_key a) (fun a ha => read_key (h1 a ha))).list
    (name := "status") (kind := .validatorStatus) (xs := filters)
      (text := fun f => f.display.toList) (by decide)
      (fun a _ => plain_status a) (fun a _ => read_status a)
  refine h.open 4 rfl (plain_state id) (read_state hid) ?_ rfl rfl (by decide)
  refine complete_sublist ?_ (by decide)
  simp only [List.map_append]
  exact ((List.Sublist.refl []).append (many_names _ _)).append (many_names _ _)

theorem served_balances {e : Endpoint} (he : ValidEndpoint e) {id : StateId}
    {ids : List PublicKeyOrIndex} (h : ValidCall (.get_balances id ids)) :
    serve (base e) ((http_get e
      (path3 "eth/v1/beacon/states/" id.display "/validator_balances")).queryList
      "id" (ids.map PublicKeyOrIndex.display)) =
    some (meaning (.get_balances id ids)) := by
  obtain ⟨hid, h1⟩ := h
  have h := (sent_get_open (route := routes[6]) he (head := "eth/v1/beacon/states/")
    (tail := "/validator_balances") (plain_state id) (by decide) (by decide)).list
    (name := "id") (kind := .validatorId) (xs := ids) (by decide)
      (fun a _ => plain_key a) (fun a ha => read_key (h1 a ha))
  refine h.open 6 rfl (plain_state id) (read_state hid) ?_ rfl rfl (by decide)
  refine complete_sublist ?_ (by decide)
  exact (many_names _ _)

theorem served_header_slot {e : Endpoint} (he : ValidEndpoint e) {n : Nat} (hn : n < 2 ^ 64) :
    serve (base e) ((http_get e "eth/v1/beacon/headers".toList).query "slot" (decimal n)) =
    some (meaning (.get_beacon_header_for_slot n)) := by
  have h := (sent_get (route := routes[10]) he (path := "eth/v1/beacon/headers") (by decide)).one
    (name := "slot") (kind := .uint64) .optional (by decide) (by simp)
      (plain_decimal n) (read_uint hn)
  exact h.closed 10 rfl (complete_sublist (names := ["slot"]) (by decide) (by decide)) rfl rfl
    (by decide)

theorem served_header_root {e : Endpoint} (he : ValidEndpoint e) {b : List UInt8}
    (hb : b.length = 32) :
    serve (base e) ((http_get e "eth/v1/beacon/headers".toList).query "parent_root"
      (write_bytes_to_lower_hex b)) =
    some (meaning (.get_beacon_header_for_parent_root b)) := by
  have h := (sent_get (route := routes[10]) he (path := "eth/v1/beacon/headers") (by decide)).one
    (name := "parent_root") (kind := .hex 32) .optional (by decide) (by simp)
      (plain_hex b) (read_hex hb)
  exact h.closed 10 rfl (complete_sublist (names := ["parent_root"]) (by decide) (by decide)) rfl
    rfl (by decide)

/-- A block with its version, whatever its JSON form -/
theorem served_block {e : Endpoint} (he : ValidEndpoint e) {path : String} {j : Json} {f : Fork}
    {validation : Option BroadcastValidation} (i : Nat) {route : Route}
    (hi : routes[i]? = some route) (h : closed path = true)
    (hc : decide (route.method = .POST ∧ route.segs = (split '/' path.toList).map .lit ∧
      route.params = [] ∧ route.versioned = true ∧ route.body = .json ∧
      route.query = [("broadcast_validation", .broadcastValidation, .optional)] ∧
      knows route "broadcast_validation" .broadcastValidation .optional = true) = true) :
    serve (base e) ({ http_post e path.toList j with
      version := some (forkName f).toList : Request }.query?
      "broadcast_validation" (validation.map fun v => v.name.toList)) =
    some { name := route.name, body := .json j, version := some f,
           query := opt "broadcast_validation" (validation.map .broadcastValidation) } := by
  obtain ⟨h1, h2, h3, h4, h5, h6, h7⟩ := of_decide_eq_true hc
  have hs := (sent_post (route := route) he (j := j) (v := some (forkName f).toList) h).maybe
    (x := validation) (text := fun v => v.name.toList) .optional h7 (by simp)
      (fun a _ => plain_validation a) (fun a _ => read_validation a)
  refine hs.closed i hi ?_ (read_version f) (by rw [h5]; rfl) ?_
  · refine complete_sublist ?_ (by simp [h6])
    rw [h6]; exact opt_names _ _
  · simp [h1, h2, h3, h4]

theorem served_updates {e : Endpoint} (he : ValidEndpoint e) {a b : Nat} (ha : a < 2 ^ 64)
    (hb : b < 2 ^ 64) :
    serve (base e) (((http_get e "eth/v1/beacon/light_client/updates".toList).query
      "start_period" (decimal a)).query "count" (decimal b)) =
    some (meaning (.get_light_client_updates a b)) := by
  have h := ((sent_get (route := routes[23]) he (path := "eth/v1/beacon/light_client/updates")
    (by decide)).one
    (name := "start_period") (kind := .uint64) .required (by decide) (by simp)
      (plain_decimal a) (read_uint ha)).one
    (name := "count") (kind := .uint64) .required (by decide) (by simp)
      (plain_decimal b) (read_uint hb)
  exact h.closed 23 rfl (show complete _ ["start_period", "count"] from
    ⟨by decide, by decide⟩) rfl rfl (by decide)

theorem served_pool {e : Endpoint} (he : ValidEndpoint e) {a b : Option Nat}
    (ha : ∀ n ∈ a, n < 2 ^ 64) (hb : ∀ n ∈ b, n < 2 ^ 64) :
    serve (base e) (((http_get e "eth/v1/beacon/pool/attestations".toList).query?
      "slot" (a.map decimal)).query? "committee_index" (b.map decimal)) =
    some (meaning (.get_attestations_from_pool a b)) := by
  have h := ((sent_get (route := routes[26]) he (path := "eth/v1/beacon/pool/attestations")
    (by decide)).maybe
    (name := "slot") (kind := .uint64) (x := a) .optional (by decide) (by simp)
      (fun a _ => plain_decimal a) (fun x hx => read_uint (ha x hx))).maybe
    (name := "committee_index") (kind := .uint64) (x := b) .optional (by decide) (by simp)
      (fun a _ => plain_decimal a) (fun x hx => read_uint (hb x hx))
  refine h.closed 26 rfl (complete_sublist ?_ (by decide)) rfl rfl (by decide)
  simp only [List.map_append]
  exact ((List.Sublist.refl []).append (opt_names _ _)).append (opt_names _ _)

theorem served_peers {e : Endpoint} (he : ValidEndpoint e) {states : List PeerState}
    {directions : List ConnectionOrientation} :
    serve (base e) (((http_get e "eth/v1/node/peers".toList).queryList
      "state" (states.map fun s => s.display.toList)).queryList
      "direction" (directions.map fun o => o.display.toList)) =
    some (meaning (.get_node_peers states directions)) := by
  have h := ((sent_get (route := routes[45]) he (path := "eth/v1/node/peers") (by decide)).list
    (name := "state") (kind := .peerState) (xs := states) (text := fun s => s.display.toList)
      (by decide) (fun a _ => plain_peerState a) (fun a _ => read_peerState a)).list
    (name := "direction") (kind := .peerDirection) (xs := directions)
      (text := fun o => o.display.toList)
      (by decide) (fun a _ => plain_direction a) (fun a _ => read_direction a)
  refine h.closed 45 rfl (complete_sublist ?_ (by decide)) rfl rfl (by decide)
  simp only [List.map_append]
  exact ((List.Sublist.refl []).append (many_names _ _)).append (many_names _ _)

/-- The proposals of blocks -/
theorem served_proposal {e : Endpoint} (he : ValidEndpoint e) {head : String} {n : Nat}
    {reveal : List UInt8} {graffiti : Option (List UInt8)} (hn : n < 2 ^ 64)
    (hr : reveal.length = 96) (hg : ∀ g ∈ graffiti, g.length = 32) (i : Nat) {route : Route}
    (hi : routes[i]? = some route)
    (hc : decide (framed head "" = true ∧ head.toList.head? = some 'e' ∧ route.method = .GET ∧
      route.segs = shape head "" ∧ route.params = [.uint64] ∧ route.versioned = false ∧
      route.body = .nothing ∧
      route.query = [("randao_reveal", .hex 96, .required), ("graffiti", .hex 32, .optional)] ∧
      knows route "randao_reveal" (.hex 96) .required = true ∧
      knows route "graffiti" (.hex 32) .optional = true) = true) :
    serve (base e) (((http_get e (path3 head (decimal n) "")).query
      "randao_reveal" (write_bytes_to_lower_hex reveal)).query?
      "graffiti" (graffiti.map write_bytes_to_lower_hex)) =
    some { name := route.name, path := [.uint64 n],
           query := ("randao_reveal", [.hex reveal]) :: opt "graffiti" (graffiti.map .hex) } := by
  obtain ⟨h1, h2, h3, h4, h5, h6, h7, h8, h9, h10⟩ := of_decide_eq_true hc
  have h := ((sent_get_open (route := route) he (plain_decimal n) h1 h2).one
    .required h9 (by simp) (plain_hex reveal) (read_hex hr)).maybe
    (x := graffiti) .optional h10 (by simp) (fun a _ => plain_hex a)
      (fun a ha => read_hex (hg a ha))
  refine h.open i hi (plain_decimal n) (read_uint hn) ?_ rfl (by rw [h7]; rfl) ?_
  · unfold complete
    rw [h8]
    cases graffiti <;> simp [opt]
  · simp [h1, h4, h5, h6, h3]

theorem served_attestation_data {e : Endpoint} (he : ValidEndpoint e) {a b : Nat} (ha : a < 2 ^ 64)
    (hb : b < 2 ^ 64) :
    serve (base e) (((http_get e "eth/v1/validator/attestation_data".toList).query
      "slot" (decimal a)).query "committee_index" (decimal b)) =
    some (meaning (.get_attestation_data a b)) := by
  have h := ((sent_get (route := routes[56]) he (path := "eth/v1/validator/attestation_data")
    (by decide)).one
    (name := "slot") (kind := .uint64) .required (by decide) (by simp)
      (plain_decimal a) (read_uint ha)).one
    (name := "committee_index") (kind := .uint64) .required (by decide) (by simp)
      (plain_decimal b) (read_uint hb)
  exact h.closed 56 rfl (show complete _ ["slot", "committee_index"] from
    ⟨by decide, by decide⟩) rfl rfl (by decide)

theorem served_aggregate {e : Endpoint} (he : ValidEndpoint e) {root : List UInt8} {n : Nat}
    (hr : root.length = 32) (hn : n < 2 ^ 64) :
    serve (base e) (((http_get e "eth/v1/validator/aggregate_attestation".toList).query
      "attestation_data_root" (write_bytes_to_lower_hex root)).query "slot" (decimal n)) =
    some (meaning (.get_attestation_aggregate root n)) := by
  have h := ((sent_get (route := routes[57]) he (path := "eth/v1/validator/aggregate_attestation")
    (by decide)).one
    (name := "attestation_data_root") (kind := .hex 32) .required (by decide) (by simp)
      (plain_hex root) (read_hex hr)).one
    (name := "slot") (kind := .uint64) .required (by decide) (by simp)
      (plain_decimal n) (read_uint hn)
  exact h.closed 57 rfl (show complete _ ["attestation_data_root", "slot"] from
    ⟨by decide, by decide⟩) rfl rfl (by decide)

theorem served_contribution {e : Endpoint} (he : ValidEndpoint e) {a b : Nat} {root : List UInt8}
    (ha : a < 2 ^ 64) (hb : b < 2 ^ 64) (hr : root.length = 32) :
    serve (base e) ((((http_get e "eth/v1/validator/sync_committee_contribution".toList).query
      "slot" (decimal a)).query "subcommittee_index" (decimal b)).query
      "beacon_block_root" (write_bytes_to_lower_hex root)) =
    some (meaning (.get_sync_committee_contribution a b root)) := by
  have h := (((sent_get (route := routes[61]) he
    (path := "eth/v1/validator/sync_committee_contribution") (by decide)).one
    (name := "slot") (kind := .uint64) .required (by decide) (by simp)
      (plain_decimal a) (read_uint ha)).one
    (name := "subcommittee_index") (kind := .uint64) .required (by decide) (by simp)
      (plain_decimal b) (read_uint hb)).one
    (name := "beacon_block_root") (kind := .hex 32) .required (by decide) (by simp)
      (plain_hex root) (read_hex hr)
  exact h.closed 61 rfl (show complete _ ["slot", "subcommittee_index", "beacon_block_root"] from
    ⟨by decide, by decide⟩) rfl rfl (by decide)

/-! ## The path with two parameters -/

theorem served_validator {e : Endpoint} (he : ValidEndpoint e) {id : StateId}
    {x : PublicKeyOrIndex} (hid : ValidState id) (hx : ValidKey x) :
    serve (base e) (http_get e
      (path3 "eth/v1/beacon/states/" id.display "/validators/" ++ x.display)) =
    some (meaning (.get_validator id x)) := by
  have hp : ∀ c, (c.isAlphanum || c == '_') = false →
      c ∉ id.display ∧ c ∉ x.display := fun c hc =>
    ⟨(plain_state id).not_mem hc, (plain_key x).not_mem hc⟩
  have e1 : path3 "eth/v1/beacon/states/" id.display "/validators/" ++ x.display =
      "eth/v1/beacon/states".toList ++ '/' ::
        (id.display ++ '/' :: ("validators".toList ++ '/' :: x.display)) := by
    simp [path3]
  have hb : Built (http_get e
      (path3 "eth/v1/beacon/states/" id.display "/validators/" ++ x.display))
      (base e ++ (path3 "eth/v1/beacon/states/" id.display "/validators/" ++ x.display)) [] := by
    refine built_of he rfl (by simp [path3]) ?_
    rw [e1]
    simp only [List.mem_append, List.mem_cons, not_or]
    exact ⟨by decide, by decide, (hp _ (by decide)).1, by decide, by decide, by decide,
      (hp _ (by decide)).2⟩
  refine serve_of (route := routes[5]) (List.getElem_mem _) hb rfl (texts := [id.display, x.display])
    ?_ (args := [.stateId id, .validatorId x]) ?_ (qs := []) ?_ (v := none) rfl rfl rfl
  · rw [e1, split_append, split_append, split_none (hp _ (by decide)).1, split_append,
      split_none (hp _ (by decide)).2]
    rfl
  · show readParams [.stateId, .validatorId] _ = _
    simp [readParams, read_state hid, read_key hx]
  · exact readQuery_of (.nil _) ⟨by simp, by decide⟩

/-! ## Paths from the root -/

theorem base_root {e : Endpoint} (h : dir e.path = ['/']) : base e = e.origin ++ ['/'] := by
  unfold base; rw [h]

theorem served_peer {e : Endpoint} (he : ValidEndpoint e) (hd : dir e.path = ['/']) {id : PeerId}
    (h : ValidCall (.get_peer id)) :
    serve (base e) (http_get e (path3 "/eth/v1/node/peers/" id.to_base58 "")) =
    some (meaning (.get_peer id)) := by
  have hb : Built (http_get e (path3 "/eth/v1/node/peers/" id.to_base58 ""))
      (base e ++ path3 "eth/v1/node/peers/" id.to_base58 "") [] := by
    refine ⟨?_, ?_, by simp⟩
    · rw [base_root hd]
      simp [http_get, path3, Endpoint.join, render]
    · simp only [List.mem_append, not_or]
      exact ⟨base_clean he, framed_clean (by decide) ((plain_peer id).not_mem (by decide))⟩
  refine serve_open routes[46] (k := .peerId) (a := .peerId id) (List.getElem_mem _) hb rfl
    (by decide) (by decide) (plain_peer id) rfl ?_ (.nil _) ⟨by simp, by decide⟩ rfl rfl rfl
  show (PeerId.from_str _).map _ = _
  rw [Props.C79_text id ((Props.C79_made _ ⟨h.1, h.2.1⟩ id).1 h.2.2).2]
  rfl

theorem served_events {e : Endpoint} (he : ValidEndpoint e) (hd : dir e.path = ['/']) :
    serve (base e) (http_get e "/eth/v1/events?topics=payload_attributes".toList) =
    some (meaning .get_events) := by
  have hb : Built (http_get e "/eth/v1/events?topics=payload_attributes".toList)
      (base e ++ "eth/v1/events".toList) [("topics", "payload_attributes".toList)] := by
    refine ⟨?_, ?_, ?_⟩
    · rw [base_root hd]
      show e.origin ++ _ = _
      rw [List.append_assoc, List.append_assoc]
      congr 1
    · simp only [List.mem_append, not_or]
      exact ⟨base_clean he, by decide⟩
    · simp only [List.mem_singleton]
      rintro q rfl
      exact ⟨plain_of_all (by decide), (plain_of_all (by decide)).light⟩
  refine serve_closed routes[43] (path := "eth/v1/events") (List.getElem_mem _) hb rfl
    (by decide) rfl (qs := [("topics", [.topic "payload_attributes".toList])]) ?_
    ⟨by simp, by decide⟩ rfl rfl rfl
  exact reads_list (kind := .topic) (xs := ["payload_attributes".toList]) (text := id)
    (by decide)
    (fun a ha => by
      rw [List.mem_singleton] at ha
      subst ha
      exact plain_of_all (by decide))
    (fun a ha => by
      rw [List.mem_singleton] at ha
      subst ha
      rfl)

/-! ## What is not served -/

theorem read_body {route : Route} {r : Request} {path : List Char}
    {pairs : List (List Char × List Char)} {o : Operation} (h : route.read r path pairs = some o) :
    (readBody route.body r.body).isSome = true := by
  unfold Route.read at h
  simp only [Option.bind_eq_bind] at h
  split at h
  · simp at h
  · cases hb : readBody route.body r.body with
    | none => simp [hb] at h
    | some b => rfl

theorem unserved_liveness {e : Endpoint} (he : ValidEndpoint e) {n i : Nat} {is : List Nat} :
    serve (base e) (http_post e (path3 "eth/v1/validator/liveness/" (decimal n) "")
      (.arr ((i :: is).map .num))) = none := by
  rw [Option.eq_none_iff_forall_ne_some]
  intro op h
  obtain ⟨target, path, pairs, route, h1, h2, h3, h4⟩ := serve_some h
  have hb : Built (http_post e (path3 "eth/v1/validator/liveness/" (decimal n) "")
      (.arr ((i :: is).map .num)))
      (base e ++ path3 "eth/v1/validator/liveness/" (decimal n) "") [] :=
    built_open he rfl (by decide) (by decide) (plain_decimal n)
  rw [hb.url, List.append_assoc, after_append] at h1
  cases h1
  rw [readTarget_render (framed_clean (by decide) ((plain_decimal n).not_mem (by decide)))
    (by simp)] at h2
  cases h2
  obtain ⟨hm, hp⟩ := Route.read_match h4
  have hl : (matchPath (shape "eth/v1/validator/liveness/" "")
      (split '/' (path3 "eth/v1/validator/liveness/" (decimal n) ""))).isSome = true := by
    rw [match_shape (by decide) ((plain_decimal n).not_mem (by decide))]; rfl
  have hg : routes[65].segs = shape "eth/v1/validator/liveness/" "" := by decide +kernel
  rw [← hg] at hl
  have hr : routes[65].method = .POST := by decide
  have : route = routes[65] :=
    routes_apart route h3 routes[65] (List.getElem_mem _) (hm.trans hr.symm)
      (overlap_of_match hp hl)
  have hbd := read_body h4
  rw [this, show routes[65].body = .indices by decide] at hbd
  simp [http_post, readBody] at hbd

theorem after_both (a b c : List Char) : after (a ++ b) (a ++ c) = after b c := by
  induction a with
  | nil => rfl
  | cons x a ih => simp [after, ih]

theorem after_some {a b c : List Char} (h : after a b = some c) : b = a ++ c := by
  induction a generalizing b with
  | nil => cases h; rfl
  | cons x a ih =>
    cases b with
    | nil => cases h
    | cons y b =>
      simp only [after] at h
      split at h
      · next e => subst e; rw [ih h]; rfl
      · cases h

/-- The directory of a path begins and ends with `/`. -/
theorem dir_form {path : List Char} (h : path.head? = some '/') :
    dir path = ['/'] ∨ ∃ d, dir path = '/' :: (d ++ ['/']) := by
  cases path with
  | nil => cases h
  | cons c t =>
    cases h
    unfold dir
    rw [List.reverse_cons, List.dropWhile_append]
    split
    · exact .inl rfl
    · next hne =>
      right
      cases hd : t.reverse.dropWhile (· != '/') with
      | nil => simp [hd] at hne
      | cons x xs =>
        have := List.head?_dropWhile_not (· != '/') t.reverse
        rw [hd] at this
        have : x = '/' := by simpa using this
        subst this
        exact ⟨xs.reverse, by simp⟩

/-- Every operation is below `eth` and has at least three parts. -/
theorem routes_eth : ∀ route ∈ routes,
    route.segs.head? = some (.lit "eth".toList) ∧ 3 ≤ route.segs.length := by decide +kernel

theorem matchPath_form {segs : List Seg} {parts : List (List Char)} {l : List Char}
    (h : (matchPath segs parts).isSome = true) (hl : segs.head? = some (.lit l)) :
    parts.head? = some l ∧ parts.length = segs.length := by
  have hlen : parts.length = segs.length := by
    clear hl
    induction parts generalizing segs with
    | nil =>
      cases segs with
      | nil => rfl
      | cons a s => cases a <;> simp [matchPath] at h
    | cons p parts ih =>
      cases segs with
      | nil => simp [matchPath] at h
      | cons a s =>
        cases a with
        | lit a =>
          simp only [matchPath] at h
          split at h
          · simp [ih h]
          · cases h
        | par => simp only [matchPath, Option.isSome_map] at h; simp [ih h]
  refine ⟨?_, hlen⟩
  cases segs with
  | nil => cases hl
  | cons a s =>
    cases hl
    cases parts with
    | nil => cases hlen
    | cons p parts =>
      simp only [matchPath] at h
      split at h
      · next e => rw [e]; rfl
      · cases h

/-- A request from the root does not reach an API that begins elsewhere. -/
theorem unserved_rooted {e : Endpoint} (he : ValidEndpoint e) (hd : dir e.path ≠ ['/'])
    {r : Request} {q t : List Char} (hr : r.url = e.origin ++ '/' :: (q ++ t)) (hq : '?' ∉ q)
    (ht : t = [] ∨ t.head? = some '?')
    (hs : ∀ x xs ys, split '/' q = x :: (xs ++ ys) → ys.head? = some "eth".toList →
      ys.length < 3) :
    serve (base e) r = none := by
  rw [Option.eq_none_iff_forall_ne_some]
  intro op h
  obtain ⟨rest, path, pairs, route, h1, h2, h3, h4⟩ := serve_some h
  obtain ⟨d, hdir⟩ := (dir_form he.1).resolve_left hd
  have hdq : '?' ∉ d ++ ['/'] := by
    intro h'
    refine base_clean he ?_
    unfold base
    rw [hdir]
    exact List.mem_append_right _ (List.mem_cons_of_mem _ h')
  have hrest : q ++ t = (d ++ ['/']) ++ rest := by
    unfold base at h1
    rw [hr, after_both, hdir] at h1
    simp only [after, if_true] at h1
    exact after_some h1
  obtain ⟨a, ha, hra⟩ : ∃ a, q = d ++ '/' :: a ∧ rest = a ++ t := by
    rcases List.append_eq_append_iff.1 hrest with ⟨c, hc, hc'⟩ | ⟨a, ha, ha'⟩
    · have : c = [] := by
        rcases ht with rfl | ht
        · exact (List.append_eq_nil_iff.1 hc'.symm).1
        · cases c with
          | nil => rfl
          | cons x c =>
            rw [hc'] at ht
            cases ht
            exact absurd (by rw [hc]; simp) hdq
      subst this
      exact ⟨[], by simpa using hc.symm, by simpa using hc'.symm⟩
    · exact ⟨a, by simpa using ha, ha'⟩
  have hpath : path = a := by
    have haq : '?' ∉ a := fun h' => hq (by rw [ha]; simp [h'])
    unfold readTarget at h2
    rw [hra] at h2
    rcases ht with rfl | ht
    · rw [List.append_nil, cut_none haq] at h2
      cases h2; rfl
    · cases t with
      | nil => cases ht
      | cons x t =>
        cases ht
        rw [cut_append haq] at h2
        simp only [Option.bind_eq_bind, Option.bind_eq_some_iff] at h2
        obtain ⟨_, -, h2⟩ := h2
        cases h2; rfl
  subst hpath
  obtain ⟨-, hm⟩ := Route.read_match h4
  obtain ⟨g1, g2⟩ := routes_eth route h3
  obtain ⟨g3, g4⟩ := matchPath_form hm g1
  have hsp : split '/' q = split '/' d ++ split '/' path := by rw [ha, split_append]
  cases hx : split '/' d with
  | nil => exact split_ne_nil _ _ hx
  | cons x xs =>
    rw [hx] at hsp
    have := hs x xs _ hsp g3
    omega

theorem unserved_events {e : Endpoint} (he : ValidEndpoint e) (hd : dir e.path ≠ ['/']) :
    serve (base e) (http_get e "/eth/v1/events?topics=payload_attributes".toList) = none := by
  refine unserved_rooted he hd (q := "eth/v1/events".toList) (t := "?topics=payload_attributes".toList)
    rfl (by decide) (.inr rfl) ?_
  intro x xs ys h _
  have : (split '/' "eth/v1/events".toList).length = 3 := by decide
  rw [h] at this
  simp at this
  omega

theorem unserved_peer {e : Endpoint} (he : ValidEndpoint e) (hd : dir e.path ≠ ['/']) (id : PeerId) :
    serve (base e) (http_get e (path3 "/eth/v1/node/peers/" id.to_base58 "")) = none := by
  refine unserved_rooted he hd (q := path3 "eth/v1/node/peers/" id.to_base58 "") (t := [])
    (by simp [http_get, path3, Endpoint.join])
    (framed_clean (by decide) ((plain_peer id).not_mem (by decide))) (.inl rfl) ?_
  intro x xs ys h hy
  have : split '/' (path3 "eth/v1/node/peers/" id.to_base58 "") =
      ["eth".toList, "v1".toList, "node".toList, "peers".toList, id.to_base58] := by
    rw [show path3 "eth/v1/node/peers/" id.to_base58 "" =
      "eth/v1/node/peers".toList ++ '/' :: id.to_base58 by simp [path3], split_append,
      split_none ((plain_peer id).not_mem (by decide))]
    rfl
  rw [this] at h
  obtain ⟨-, h⟩ := List.cons.inj h
  rcases xs with _ | ⟨a, _ | ⟨b, xs⟩⟩
  · subst h; exact absurd (Option.some.inj hy) (by decide)
  · obtain ⟨-, h⟩ := List.cons.inj h
    subst h; exact absurd (Option.some.inj hy) (by decide)
  · have := congrArg List.length h
    simp at this
    omega

end Verif.Spec.Beacon
