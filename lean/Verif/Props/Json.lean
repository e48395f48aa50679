import Verif.Proofs.JsonTypes

/-! # C71–C74: the types in JSON -/

namespace Verif.Props

open Spec Text Json

/-- The types of the repository that are written to JSON and read from it, with their names:
the containers of every fork, and the types of the beacon API. -/
abbrev jsonTypes (K : Consts) : List (String × Schema) := coreTypes K ++ apiTypes K

/-! ## C71 -/

/-- **C71** What is written of a value of any type is read as that value from any text of it, with
the members of every object in any order and among others. -/
theorem C71_types (K : Consts) (p : String × Schema) (hp : p ∈ jsonTypes K) (v : p.2.Val)
    (j : Json) (hj : Extends j (p.2.enc v)) : p.2.dec .borrowed j = some v :=
  Schema.dec_extends _ _ hj
    (Schema.roundtrip .borrowed p.2 (distinct_of_mem hp) (by simp [Source.reads]) v)

/-- **C71** Two values of a type are written differently. -/
theorem C71_injective (K : Consts) (p : String × Schema) (hp : p ∈ jsonTypes K) (v w : p.2.Val)
    (h : p.2.enc v = p.2.enc w) : v = w := by
  have h1 := C71_types K p hp v _ (.refl _)
  have h2 := C71_types K p hp w _ (.refl _)
  rw [h, h2] at h1
  exact (Option.some.inj h1).symm

/-! ## C74 -/

/-- **C74** The same from every source. Missing: the types in `borrowing`, which hold a list of integers; the
next theorem shows that some of them are not read. -/
theorem C74_sources_partial (K : Consts) (p : String × Schema) (hp : p ∈ jsonTypes K)
    (hb : p.1 ∉ borrowing) (src : Source) (v : p.2.Val) (j : Json) (hj : Extends j (p.2.enc v)) :
    p.2.dec src j = some v :=
  Schema.dec_extends _ _ hj
    (Schema.roundtrip src p.2 (distinct_of_mem hp) (by simp [Source.reads, plain_of_mem hp hb]) v)

theorem state_owned {s : Fields} {n : Nat} (hn : n ≠ 0)
    (hf : s.find "slashings" = some (.ints (2 ^ 64) (.exactly n))) (v : (Schema.record s).Val) :
    (Schema.record s).dec .owned ((Schema.record s).enc v) = none := by
  unfold Schema.enc Schema.dec
  obtain ⟨w, hw⟩ := lookup_enc_some hf v
  exact decObj_none hf hw (ints_owned hn w)

/-- **C74**, where the code departs from it: a beacon state of any fork is not read back through
`serde_json::from_value` or `from_reader`, because `seq_of_str` asks for strings that outlive the
reading. -/
theorem C74_states_not_owned (K : Consts) (hK : K.EPOCHS_PER_SLASHINGS_VECTOR ≠ 0) (f : Fork)
    (v : ((Json.BeaconState K).schema f).Val) :
    ((Json.BeaconState K).schema f).dec .owned (((Json.BeaconState K).schema f).enc v) = none := by
  cases f
  · exact state_owned hK rfl v
  · exact state_owned hK rfl v
  · exact state_owned hK rfl v
  · exact state_owned hK rfl v
  · exact state_owned hK rfl v
  · exact state_owned hK rfl v

/-! ## C73 -/

/-- **C73** The enums over forks leave no trace of the fork in the JSON, and still recover it: each
value is read back as the same value of the same fork, with the members of the objects in any
order. Missing: that the JSON of a fork without a variant is refused, which is false. -/
theorem C73_forks_partial (K : Consts) (E : ForkEnum) (hE : E ∈ forkEnums K) (f : Fork) (hf : f ∈ E.order)
    (v : (E.schema f).Val) (j : Json) (h1 : Extends j ((E.schema f).enc v))
    (h2 : Extends ((E.schema f).enc v) j) :
    Versioned.dec E.order E.schema j = some ⟨f, v⟩ := by
  have hd := List.all_eq_true.1 (List.all_eq_true.1 (enums_distinct K) E hE) f hf
  rw [← versioned_dec (List.all_eq_true.1 (enums_lacking K) E hE) hf (v := v) hd]
  unfold Versioned.dec
  congr 1
  funext g
  rw [dec_congr h1 h2]

/-- **C73** The enums have a variant for every fork before Electra that has the type. -/
theorem C73_variants (K : Consts) (E : ForkEnum) (hE : E ∈ forkEnums K) (f : Fork) :
    f ∈ E.order ↔ f ≠ .Electra ∧ (f = .Phase0 ∨ f = .Altair → E.name ∈
      ["BeaconState", "BeaconBlock", "BeaconBlockBody", "SignedBeaconBlock"]) := by
  simp only [forkEnums, List.mem_cons, List.not_mem_nil, or_false] at hE
  rcases hE with rfl | rfl | rfl | rfl | rfl | rfl | rfl | rfl | rfl <;> cases f <;>
    simp [Json.BeaconState, Json.BeaconBlock, Json.BeaconBlockBody, Json.SignedBeaconBlock,
      Json.BlindedBeaconBlock, Json.BlindedBeaconBlockBody, Json.SignedBlindedBeaconBlock,
      Json.ExecutionPayload, Json.ExecutionPayloadHeader]

theorem electra_as_deneb {schema : Fork → Schema} {order : List Fork}
    (hd : (schema .Deneb).distinct = true) (he : (schema .Electra).distinct = true)
    (h : Part (schema .Deneb) (schema .Electra)) (v : (schema .Electra).Val) :
    ∃ d, Versioned.dec (.Deneb :: order) schema ((schema .Electra).enc v) = some ⟨.Deneb, d⟩ ∧
      Extends ((schema .Electra).enc v) ((schema .Deneb).enc d) := by
  obtain ⟨d, h1, h2⟩ := Schema.part_dec _ _ hd he h v
  refine ⟨d, ?_, h2⟩
  unfold Versioned.dec
  rw [List.findSome?_cons, h1]
  rfl

/-- **C73**, where the code departs from it: the enums have no variant for Electra, but the JSON of
an Electra state, execution payload or payload header is not refused. It is read as the value of
Deneb that has those fields that Deneb knows, and the rest is dropped. -/
theorem C73_electra_read_as_deneb (K : Consts) (E : ForkEnum)
    (hE : E ∈ [Json.BeaconState K, Json.ExecutionPayload K, Json.ExecutionPayloadHeader K])
    (v : (E.schema .Electra).Val) :
    ∃ d, Versioned.dec E.order E.schema ((E.schema .Electra).enc v) = some ⟨.Deneb, d⟩ ∧
      Extends ((E.schema .Electra).enc v) ((E.schema .Deneb).enc d) := by
  simp only [List.mem_cons, List.not_mem_nil, or_false] at hE
  rcases hE with rfl | rfl | rfl
  · exact electra_as_deneb rfl rfl (state_part K) v
  · exact electra_as_deneb rfl rfl (payload_part K) v
  · exact electra_as_deneb rfl rfl (header_part K) v

/-! ## C72 -/

/-- **C72** Integers are written as strings, as the beacon API has them, so that no reader rounds
them. Missing: the types in `numbered`. -/
theorem C72_integers_as_strings_partial (K : Consts) (p : String × Schema) (hp : p ∈ jsonTypes K)
    (hn : p.1 ∉ numbered) (v : p.2.Val) : NumberFree (p.2.enc v) :=
  Schema.numberFree p.2 (numeric_of_mem hp hn) v

/-- **C72**, where the code departs from it: every value of the types in `numbered` is written with a
JSON number. -/
theorem C72_numbers (K : Consts) (p : String × Schema) (hp : p ∈ jsonTypes K)
    (hn : p.1 ∈ numbered) (v : p.2.Val) : ¬ NumberFree (p.2.enc v) :=
  Schema.not_numberFree p.2 (hasNum_of_mem hp hn) v

/-- **C72**, where the code departs from it: an update for light clients, of any fork, whose signature
slot is a string, as the beacon API has it, is refused. -/
theorem C72_string_slot_refused (K : Consts) (s : Schema)
    (hs : s ∈ [altair.LightClientUpdate K, altair.LightClientFinalityUpdate K,
      altair.LightClientOptimisticUpdate K, capella.LightClientUpdate K,
      capella.LightClientFinalityUpdate K, capella.LightClientOptimisticUpdate K,
      deneb.LightClientUpdate K, deneb.LightClientFinalityUpdate K,
      deneb.LightClientOptimisticUpdate K]) (src : Source)
    (ms : List (String × Json)) (t : List Char) (ht : lookup "signature_slot" ms = some (.str t)) :
    s.dec src (.obj ms) = none := by
  have key : ∀ fs : Fields, fs.find "signature_slot" = some (.num (2 ^ 64)) →
      (Schema.record fs).dec src (.obj ms) = none := by
    intro fs hf
    unfold Schema.dec
    exact decObj_none hf ht (by unfold Schema.dec; rfl)
  simp only [List.mem_cons, List.not_mem_nil, or_false] at hs
  rcases hs with rfl | rfl | rfl | rfl | rfl | rfl | rfl | rfl | rfl <;> exact key _ rfl

/-! ## Concrete cases -/

/-- The constants of the mainnet preset, `*/presets/mainnet.rs` -/
def mainnetConsts : Consts where
  MAX_PROPOSER_SLASHINGS := 16
  MAX_VALIDATORS_PER_COMMITTEE := 2048
  MAX_ATTESTER_SLASHINGS := 2
  MAX_ATTESTATIONS := 128
  DEPOSIT_PROOF_LENGTH := 33
  MAX_DEPOSITS := 16
  MAX_VOLUNTARY_EXITS := 16
  SLOTS_PER_HISTORICAL_ROOT := 8192
  HISTORICAL_ROOTS_LIMIT := 16777216
  ETH1_DATA_VOTES_BOUND := 2048
  VALIDATOR_REGISTRY_LIMIT := 2 ^ 40
  EPOCHS_PER_HISTORICAL_VECTOR := 65536
  EPOCHS_PER_SLASHINGS_VECTOR := 8192
  PENDING_ATTESTATIONS_BOUND := 4096
  JUSTIFICATION_BITS_LENGTH := 4
  ATTESTATION_SUBNET_COUNT := 64
  SYNC_COMMITTEE_SIZE := 512
  CURRENT_SYNC_COMMITTEE_INDEX_FLOOR_LOG_2 := 5
  NEXT_SYNC_COMMITTEE_INDEX_FLOOR_LOG_2 := 5
  FINALIZED_ROOT_INDEX_FLOOR_LOG_2 := 6
  SYNC_COMMITTEE_SUBNET_COUNT := 4
  SYNC_SUBCOMMITTEE_SIZE := 128
  BYTES_PER_LOGS_BLOOM := 256
  MAX_EXTRA_DATA_BYTES := 32
  MAX_BYTES_PER_TRANSACTION := 1073741824
  MAX_TRANSACTIONS_PER_PAYLOAD := 1048576
  MAX_WITHDRAWALS_PER_PAYLOAD := 16
  MAX_BLS_TO_EXECUTION_CHANGES := 16
  EXECUTION_PAYLOAD_INDEX_FLOOR_LOG_2 := 4
  MAX_BLOB_COMMITMENTS_PER_BLOCK := 4096
  BYTES_PER_BLOB := 131072
  KZG_COMMITMENT_INCLUSION_PROOF_DEPTH := 17
  MAX_VALIDATORS_PER_SLOT := 131072
  MAX_COMMITTEES_PER_SLOT := 64
  MAX_DEPOSIT_RECEIPTS_PER_PAYLOAD := 8192
  MAX_WITHDRAWAL_REQUESTS_PER_PAYLOAD := 16
  MAX_CONSOLIDATIONS := 1
  PENDING_BALANCE_DEPOSITS_LIMIT := 2 ^ 27
  PENDING_PARTIAL_WITHDRAWALS_LIMIT := 2 ^ 27
  PENDING_CONSOLIDATIONS_LIMIT := 2 ^ 18

mutual

/-- The compact text of `serde_json::to_string`, for strings that need no escapes -/
def render : Json → List Char
  | .null => "null".toList
  | .bool b => (if b then "true" else "false").toList
  | .num n => decimal n
  | .str s => '"' :: s ++ ['"']
  | .arr xs => '[' :: renderArr xs ++ [']']
  | .obj ms => '{' :: renderObj ms ++ ['}']

def renderArr : List Json → List Char
  | [] => []
  | [x] => render x
  | x :: xs => render x ++ ',' :: renderArr xs

def renderObj : List (String × Json) → List Char
  | [] => []
  | [(n, x)] => '"' :: n.toList ++ '"' :: ':' :: render x
  | (n, x) :: ms => '"' :: n.toList ++ '"' :: ':' :: render x ++ ',' :: renderObj ms

end

/-- A checkpoint -/
def sampleCheckpoint : (phase0.Checkpoint mainnetConsts).Val :=
  ((1234567890123456789 : Fin (2 ^ 64)), ⟨(List.range 32).map UInt8.ofNat, by decide⟩, ())

/-- It is written as the beacon API has it. -/
example : String.ofList (render ((phase0.Checkpoint mainnetConsts).enc sampleCheckpoint)) =
    "{\"epoch\":\"1234567890123456789\",\"root\":\"0x000102030405060708090a0b0c0d0e0f101112131415161718191a1b1c1d1e1f\"}" := by
  decide +kernel

/-- It is read back with the members in the other order, one more member, a `+`, and capitals. -/
example : ((phase0.Checkpoint mainnetConsts).dec .owned (.obj [
      ("root", .str "0x000102030405060708090A0B0C0D0E0F101112131415161718191A1B1C1D1E1F".toList),
      ("extra", .null), ("epoch", .str "+1234567890123456789".toList)])).map
      (fun v : Fin (2 ^ 64) × {data : List UInt8 // data.length = 32} × Unit =>
        (v.1.val, v.2.1.val)) =
    some (1234567890123456789, (List.range 32).map UInt8.ofNat) := by decide +kernel

/-- Names are missing, or a number is not a string, or out of range. -/
example : (phase0.Checkpoint mainnetConsts).dec .borrowed (.obj [
      ("epoch", .str "1".toList)]) = none ∧
    (phase0.Checkpoint mainnetConsts).dec .borrowed (.obj [("epoch", .num 1), ("root",
      .str "0x000102030405060708090a0b0c0d0e0f101112131415161718191a1b1c1d1e1f".toList)]) = none ∧
    (phase0.Checkpoint mainnetConsts).dec .borrowed (.obj [
      ("epoch", .str "18446744073709551616".toList), ("root",
      .str "0x000102030405060708090a0b0c0d0e0f101112131415161718191a1b1c1d1e1f".toList)]) =
      none := by decide +kernel

/-- Zeros in hexadecimal -/
def zeros (n : Nat) : List Char := List.replicate n '0'

/-- The text that the repository expects of a default signed block of Deneb
(`EXPECTED_SIGNED_BLOCK_STR` in the tests of `serde.rs`, without the white space) -/
example : ((deneb.SignedBeaconBlock mainnetConsts).zero.map fun v =>
      render ((deneb.SignedBeaconBlock mainnetConsts).enc v)) = some (
    "{\"message\":{\"slot\":\"0\",\"proposer_index\":\"0\",\"parent_root\":\"0x".toList ++
    zeros 64 ++
    "\",\"state_root\":\"0x".toList ++
    zeros 64 ++
    "\",\"body\":{\"randao_reveal\":\"0x".toList ++
    zeros 192 ++
    "\",\"eth1_data\":{\"deposit_root\":\"0x".toList ++
    zeros 64 ++
    "\",\"deposit_count\":\"0\",\"block_hash\":\"0x".toList ++
    zeros 64 ++
    "\"},\"graffiti\":\"0x".toList ++
    zeros 64 ++
    "\",\"proposer_slashings\":[],\"attester_slashings\":[],\"attestations\":[],\"dep".toList ++
    "osits\":[],\"voluntary_exits\":[],\"sync_aggregate\":{\"sync_committee_bits\":\"".toList ++
    "0x".toList ++
    zeros 128 ++
    "\",\"sync_committee_signature\":\"0x".toList ++
    zeros 192 ++
    "\"},\"execution_payload\":{\"parent_hash\":\"0x".toList ++
    zeros 64 ++
    "\",\"fee_recipient\":\"0x".toList ++
    zeros 40 ++
    "\",\"state_root\":\"0x".toList ++
    zeros 64 ++
    "\",\"receipts_root\":\"0x".toList ++
    zeros 64 ++
    "\",\"logs_bloom\":\"0x".toList ++
    zeros 512 ++
    "\",\"prev_randao\":\"0x".toList ++
    zeros 64 ++
    "\",\"block_number\":\"0\",\"gas_limit\":\"0\",\"gas_used\":\"0\",\"timestamp\":".toList ++
    "\"0\",\"extra_data\":\"0x\",\"base_fee_per_gas\":\"0\",\"block_hash\":\"0x".toList ++
    zeros 64 ++
    "\",\"transactions\":[],\"withdrawals\":[],\"blob_gas_used\":\"0\",\"excess_blob_".toList ++
    "gas\":\"0\"},\"bls_to_execution_changes\":[],\"blob_kzg_commitments\":[]}},\"sig".toList ++
    "nature\":\"0x".toList ++
    zeros 192 ++
    "\"}".toList) := by
  decide +kernel

/-- Small constants, so that a whole state can be computed -/
def tinyConsts : Consts :=
  { mainnetConsts with
    SLOTS_PER_HISTORICAL_ROOT := 2, EPOCHS_PER_HISTORICAL_VECTOR := 2,
    EPOCHS_PER_SLASHINGS_VECTOR := 2, SYNC_COMMITTEE_SIZE := 2 }

/-- Every type of the repository has values. -/
example : (jsonTypes tinyConsts).all (fun p => p.2.zero.isSome) = true := by decide +kernel

/-- The default state of each fork is read as a state of that fork, except that the one of Electra is
read as a state of Deneb. -/
example : (([Fork.Phase0, .Altair, .Bellatrix, .Capella, .Deneb, .Electra]).map fun f =>
      ((Json.BeaconState tinyConsts).schema f).zero.bind fun v =>
        (Versioned.dec (Json.BeaconState tinyConsts).order (Json.BeaconState tinyConsts).schema
          (((Json.BeaconState tinyConsts).schema f).enc v)).map (·.1)) =
    [some .Phase0, some .Altair, some .Bellatrix, some .Capella, some .Deneb, some .Deneb] := by
  decide +kernel

end Verif.Props
