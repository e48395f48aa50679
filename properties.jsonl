{"id": "C01", "title": "Per-index shuffle is a permutation", "statement": "For a fixed seed and list length n, compute_shuffled_index accepts exactly the indices below n, always returns an index below n, and never maps two different indices to the same place: it is a permutation of 0..n.", "quantifier": "every length n > 0, every seed, every number of rounds, every hash function, every index", "why_tests_cant": "the domain is all (n, seed) pairs; tests sample a few shuffles from vectors", "anchors": ["ethereum-consensus/src/phase0/helpers.rs:compute_shuffled_index"]}
{"id": "C02", "title": "Whole-list shuffle agrees with per-index shuffle", "statement": "The optimised list shuffle (feature `shuffling`) and the per-index shuffle are the same function: element i of compute_shuffled_indices(xs, seed) is xs[compute_shuffled_index(i, len xs, seed)]. Enabling or disabling the cargo feature never changes committees or proposers.", "quantifier": "every list of validator indices, every seed, every round count >= 1, every hash function, every position", "why_tests_cant": "two different algorithms with cached hash blocks; disagreement could hide at any block boundary, pivot or length", "anchors": ["ethereum-consensus/src/phase0/helpers.rs:compute_shuffled_indices", "ethereum-consensus/src/phase0/helpers.rs:compute_shuffled_index", "ethereum-consensus/src/phase0/helpers.rs:compute_committee", "ethereum-consensus/src/phase0/helpers.rs:compute_proposer_index"]}
{"id": "C03", "title": "Beacon committees partition the active set", "statement": "Within an epoch, the committees of all slots and committee indices, taken together, contain every active validator exactly once and nobody else.", "quantifier": "every state, every epoch, every active set size, every seed, both shuffling implementations", "why_tests_cant": "needs bijectivity of the shuffle and exact slicing arithmetic for every registry size", "anchors": ["ethereum-consensus/src/phase0/helpers.rs:get_beacon_committee", "ethereum-consensus/src/phase0/helpers.rs:compute_committee", "ethereum-consensus/src/phase0/helpers.rs:get_committee_count_per_slot"]}
{"id": "C04", "title": "Committee sizes are balanced", "statement": "Any two committees of an epoch differ in size by at most one, and the number of committees per slot is always between 1 and max_committees_per_slot.", "quantifier": "every state, epoch, slot and committee index", "why_tests_cant": "integer division edge cases over all registry sizes", "anchors": ["ethereum-consensus/src/phase0/helpers.rs:compute_committee", "ethereum-consensus/src/phase0/helpers.rs:get_committee_count_per_slot"]}
{"id": "C05", "title": "The block proposer is an active validator", "statement": "get_beacon_proposer_index, when it returns, returns an active validator of the current epoch, namely the first candidate in shuffled order whose effective balance passes the random-byte test; the outcome does not depend on the `shuffling` feature. With no active validator it returns an error.", "quantifier": "every state, slot and seed; any number of sampling rounds", "why_tests_cant": "the sampling loop is unbounded and the random bytes are arbitrary", "anchors": ["ethereum-consensus/src/phase0/helpers.rs:compute_proposer_index", "ethereum-consensus/src/phase0/helpers.rs:sample_proposer_index", "ethereum-consensus/src/phase0/helpers.rs:get_beacon_proposer_index"]}
{"id": "C06", "title": "Slashable attestation pairs are exactly double and surround votes", "statement": "is_slashable_attestation_data(a, b) holds exactly when a and b are different votes for the same target epoch, or a surrounds b. No pair of votes that respects both rules is ever slashable.", "quantifier": "every pair of attestation data", "why_tests_cant": "universally quantified over pairs of votes", "anchors": ["ethereum-consensus/src/phase0/helpers.rs:is_slashable_attestation_data"]}
{"id": "C07", "title": "Indexed attestations are accepted only when sorted, duplicate-free, in range and signed", "statement": "is_valid_indexed_attestation returns Ok exactly when the index list is non-empty, strictly increasing, all indices are in the registry, and the aggregate signature of exactly those validators' keys over the data (in the attester domain of the target epoch) verifies. It never panics.", "quantifier": "every state and every indexed attestation", "why_tests_cant": "arbitrary index lists from the network", "anchors": ["ethereum-consensus/src/phase0/helpers.rs:is_valid_indexed_attestation"]}
{"id": "C08", "title": "Balance changes are saturating below and confined to one validator", "statement": "decrease_balance subtracts exactly min(delta, balance) and never wraps; increase_balance adds exactly delta or panics on u64 overflow; neither touches any other balance or any other part of the state.", "quantifier": "every state, index and amount", "why_tests_cant": "64-bit arithmetic over all amounts", "anchors": ["ethereum-consensus/src/phase0/helpers.rs:increase_balance", "ethereum-consensus/src/phase0/helpers.rs:decrease_balance"]}
{"id": "C09", "title": "Voluntary and forced exits are queued, set once and rate limited", "statement": "initiate_validator_exit leaves a validator that already has an exit epoch unchanged; otherwise it assigns an exit epoch at least current_epoch+1+max_seed_lookahead and at least every exit epoch already assigned, with withdrawable_epoch = exit_epoch + delay, changes no other validator, and never lets the number of validators sharing the assigned exit epoch exceed the churn limit. Over any sequence of exits the per-epoch bound is kept.", "quantifier": "every state, every validator index, any sequence of exit requests", "why_tests_cant": "an invariant over all histories of exits", "anchors": ["ethereum-consensus/src/phase0/helpers.rs:initiate_validator_exit", "ethereum-consensus/src/phase0/helpers.rs:get_validator_churn_limit"]}
{"id": "C10", "title": "Slashing has exactly the specified effects", "statement": "slash_validator on success marks exactly one validator slashed, gives it an exit epoch, makes it withdrawable no earlier than current epoch + epochs_per_slashings_vector, adds its effective balance to the current slashings slot, deducts effective_balance / penalty quotient, and pays the whistleblower/proposer; nothing else in the state changes.", "quantifier": "every state and validator index, each fork's penalty quotient", "why_tests_cant": "frame condition over the whole state", "anchors": ["ethereum-consensus/src/phase0/helpers.rs:slash_validator", "ethereum-consensus/src/altair/helpers.rs:slash_validator", "ethereum-consensus/src/bellatrix/helpers.rs:slash_validator"]}
{"id": "C11", "title": "Slashing is irrevocable and exit/activation epochs are set once", "statement": "No state transition entry point (operations, block, epoch or slot processing), whether it succeeds or fails, ever clears the slashed flag, changes an exit epoch that has been set, changes an activation epoch that has been set, lowers a withdrawable epoch that has been set, or removes or reorders validators.", "quantifier": "every state, every sequence of operations, blocks and slots, including failing ones", "why_tests_cant": "history property over unbounded executions", "anchors": ["ethereum-consensus/src/phase0/block_processing.rs", "ethereum-consensus/src/phase0/epoch_processing.rs", "ethereum-consensus/src/phase0/helpers.rs"]}
{"id": "C12", "title": "Registry lists stay parallel", "statement": "In every state reachable by the transition functions, `validators` and `balances` have the same length (and, from Altair, so do both participation lists and inactivity scores), the registry only grows, and the fixed-size history vectors keep their length.", "quantifier": "every state, every sequence of operations, including failing ones", "why_tests_cant": "invariant over all histories", "anchors": ["ethereum-consensus/src/phase0/block_processing.rs:add_validator_to_registry", "ethereum-consensus/src/altair/block_processing.rs", "ethereum-consensus/src/capella", "ethereum-consensus/src/deneb", "ethereum-consensus/src/electra"]}
{"id": "C13", "title": "Proposer slashing is accepted exactly for equivocating headers", "statement": "process_proposer_slashing succeeds only for two different signed headers with the same slot and proposer, whose proposer exists, is slashable in the current epoch and signed both; and the effect is exactly slash_validator of that proposer. Any single failing condition leaves the state unchanged.", "quantifier": "every state and proposer slashing", "why_tests_cant": "arbitrary adversarial input", "anchors": ["ethereum-consensus/src/phase0/block_processing.rs:process_proposer_slashing"]}
{"id": "C14", "title": "Attester slashing slashes exactly the slashable common attesters", "statement": "process_attester_slashing succeeds only for two valid indexed attestations with slashable data and at least one slashable common attester, and it slashes exactly the validators present in both index lists that are slashable, in ascending order; no other validator becomes slashed.", "quantifier": "every state and attester slashing", "why_tests_cant": "arbitrary index lists", "anchors": ["ethereum-consensus/src/phase0/block_processing.rs:process_attester_slashing"]}
{"id": "C15", "title": "Block header checks", "statement": "process_block_header succeeds exactly when the block's slot equals the state's slot, is newer than the latest header, its proposer is the expected proposer and is not slashed, and its parent root is the root of the latest header; on success only latest_block_header changes, with an empty state root.", "quantifier": "every state and block", "why_tests_cant": "arbitrary blocks", "anchors": ["ethereum-consensus/src/phase0/block_processing.rs:process_block_header"]}
{"id": "C16", "title": "Slot processing advances exactly to the requested slot", "statement": "process_slots(target) rejects targets not after the current slot without changing the state; when it succeeds the state is at exactly the target slot, and epoch processing ran exactly once for each epoch boundary crossed, at the last slot of the epoch.", "quantifier": "every state and target slot; any number of skipped slots", "why_tests_cant": "unbounded number of slots", "anchors": ["ethereum-consensus/src/phase0/slot_processing.rs:process_slots"]}
{"id": "C17", "title": "Recent block and state roots are remembered correctly", "statement": "After slot processing, get_block_root_at_slot(s) returns, for each s within the last SLOTS_PER_HISTORICAL_ROOT slots, the root of the latest block header as of slot s; for any other slot it returns an error.", "quantifier": "every state, every number of processed slots", "why_tests_cant": "ring-buffer aliasing over unbounded histories", "anchors": ["ethereum-consensus/src/phase0/slot_processing.rs:process_slot", "ethereum-consensus/src/phase0/helpers.rs:get_block_root_at_slot", "ethereum-consensus/src/phase0/helpers.rs:get_block_root"]}
{"id": "C18", "title": "RANDAO history is a faithful ring buffer", "statement": "process_randao changes only the current epoch's mix, to the xor of the old mix with the hash of the reveal; epoch processing copies the current mix to the next epoch; any of the preceding epochs_per_historical_vector - 1 mixes is left untouched. Mixing the same reveal twice restores the mix.", "quantifier": "every state, reveal and epoch", "why_tests_cant": "ring buffer and xor over all values", "anchors": ["ethereum-consensus/src/phase0/block_processing.rs:process_randao", "ethereum-consensus/src/phase0/epoch_processing.rs:process_randao_mixes_reset", "ethereum-consensus/src/phase0/helpers.rs:get_randao_mix"]}
{"id": "C19", "title": "Justification and finalization obey the Casper rules", "statement": "weigh_justification_and_finalization justifies an epoch only with a two-thirds supermajority of the active balance, finalizes only a previously justified checkpoint from a run of consecutively justified epochs ending at this epoch (the four rules), never moves the justified or finalized epoch backwards, and keeps finalized <= previous justified <= current justified <= current epoch.", "quantifier": "every state satisfying the checkpoint order, any balances; every sequence of epochs", "why_tests_cant": "safety invariant over all histories", "anchors": ["ethereum-consensus/src/phase0/epoch_processing.rs:process_justification_and_finalization", "ethereum-consensus/src/phase0/epoch_processing.rs:weigh_justification_and_finalization"]}
{"id": "C20", "title": "Effective balances follow hysteresis and stay capped", "statement": "After process_effective_balance_updates every effective balance is unchanged when the balance is within the hysteresis band, and otherwise is the largest multiple of the increment not above min(balance, max_effective_balance); effective balances never exceed max_effective_balance.", "quantifier": "every state and balance", "why_tests_cant": "64-bit arithmetic over every balance", "anchors": ["ethereum-consensus/src/phase0/epoch_processing.rs:process_effective_balance_updates"]}
{"id": "C21", "title": "Activation queue is fair and rate limited", "statement": "process_registry_updates activates at most the churn limit of validators, only validators whose eligibility epoch is finalized, in order of (eligibility epoch, index) with no eligible validator overtaken, all at current_epoch+1+max_seed_lookahead; it ejects exactly the active validators at or below the ejection balance.", "quantifier": "every state", "why_tests_cant": "ordering and counting over every registry", "anchors": ["ethereum-consensus/src/phase0/epoch_processing.rs:process_registry_updates", "ethereum-consensus/src/deneb/epoch_processing.rs:process_registry_updates"]}
{"id": "C22", "title": "Slashing penalties", "statement": "process_slashings penalises exactly the slashed validators that are halfway through their withdrawability delay, by the proportional formula, never more than the effective balance rounded to increments; every other balance is untouched.", "quantifier": "every state", "why_tests_cant": "arithmetic over all balances", "anchors": ["ethereum-consensus/src/phase0/epoch_processing.rs:process_slashings", "ethereum-consensus/src/altair/epoch_processing.rs:process_slashings", "ethereum-consensus/src/bellatrix/epoch_processing.rs:process_slashings"]}
{"id": "C23", "title": "Slashings vector holds the total slashed in the window", "statement": "Slashing adds to the current epoch's slot only, and the epoch reset clears exactly the next epoch's slot, so the vector sums the effective balance slashed in the last epochs_per_slashings_vector epochs.", "quantifier": "every state; any sequence of slashings and epochs", "why_tests_cant": "ring buffer over unbounded histories", "anchors": ["ethereum-consensus/src/phase0/epoch_processing.rs:process_slashings_reset", "ethereum-consensus/src/phase0/helpers.rs:slash_validator"]}
{"id": "C24", "title": "Eth1 data changes only by strict majority", "statement": "process_eth1_data records the proposer's vote and replaces eth1_data exactly when that vote has more than half of the slots of the voting period; the vote list is cleared exactly at period ends and never outgrows the period.", "quantifier": "every state, vote and history", "why_tests_cant": "voting over all histories", "anchors": ["ethereum-consensus/src/phase0/block_processing.rs:process_eth1_data", "ethereum-consensus/src/phase0/epoch_processing.rs:process_eth1_data_reset"]}
{"id": "C25", "title": "Deposits are processed exactly once, in order", "statement": "process_deposit advances eth1_deposit_index by exactly one and only for a proof valid against the current deposit root at the current index; a new key adds exactly one validator whose balance is the deposit amount; a known key only tops up that balance, without a signature check; an invalid signature for a new key adds nothing.", "quantifier": "every state and deposit", "why_tests_cant": "arbitrary deposits", "anchors": ["ethereum-consensus/src/phase0/block_processing.rs:process_deposit", "ethereum-consensus/src/phase0/block_processing.rs:apply_deposit", "ethereum-consensus/src/phase0/block_processing.rs:add_validator_to_registry"]}
{"id": "C26", "title": "A block must include the due deposits", "statement": "process_operations accepts a block only if it carries exactly min(max_deposits, deposit_count - eth1_deposit_index) deposits.", "quantifier": "every state and block", "why_tests_cant": "arbitrary blocks", "anchors": ["ethereum-consensus/src/phase0/block_processing.rs:process_operations", "ethereum-consensus/src/electra/block_processing.rs:process_operations"]}
{"id": "C27", "title": "Voluntary exits are accepted only when allowed", "statement": "process_voluntary_exit succeeds exactly when the validator exists, is active, has not initiated exit, the exit epoch has been reached, the validator has served shard_committee_period epochs (the code measures from activation eligibility), and its signature verifies; its effect is exactly initiate_validator_exit.", "quantifier": "every state and exit, each fork's signature domain", "why_tests_cant": "arbitrary exits", "anchors": ["ethereum-consensus/src/phase0/block_processing.rs:process_voluntary_exit", "ethereum-consensus/src/deneb/block_processing.rs:process_voluntary_exit"]}
{"id": "C28", "title": "Attestations are accepted only for the right slot, target, source and committee", "statement": "process_attestation (phase0) succeeds only when the target epoch is current or previous and matches the slot, the inclusion window holds, the committee index is in range, the bitfield has the committee's length, the source is the justified checkpoint of the target epoch, and the aggregate signature verifies; it appends exactly one pending attestation to the matching list and changes nothing else.", "quantifier": "every state and attestation", "why_tests_cant": "arbitrary attestations", "anchors": ["ethereum-consensus/src/phase0/block_processing.rs:process_attestation"]}
{"id": "C29", "title": "Participation flags form a monotone bit set", "statement": "add_flag sets exactly one flag and keeps the others; has_flag reads it back; adding is idempotent and commutative; flags for an epoch are never cleared, whatever slots and blocks follow, until the end of the next epoch, when rewards for it are booked.", "quantifier": "every flag byte and flag index", "why_tests_cant": "all bytes and all sequences", "anchors": ["ethereum-consensus/src/altair/helpers.rs:add_flag", "ethereum-consensus/src/altair/helpers.rs:has_flag"]}
{"id": "C30", "title": "Attestation flags reward each validator once", "statement": "In Altair and later, process_attestation only sets participation flags of the attesters, sets exactly the flags earned by the inclusion delay and the matching source/target/head, never clears flags, and re-including an attestation pays no further proposer reward. The order in which the attester set is visited does not matter.", "quantifier": "every state and attestation, every iteration order of the attester set", "why_tests_cant": "hash-set order is nondeterministic; arbitrary attestations", "anchors": ["ethereum-consensus/src/altair/block_processing.rs:process_attestation", "ethereum-consensus/src/deneb/block_processing.rs:process_attestation", "ethereum-consensus/src/altair/helpers.rs:get_attestation_participation_flag_indices"]}
{"id": "C31", "title": "Inactivity scores", "statement": "process_inactivity_updates lowers the score of participating eligible validators by one, raises the others by the bias, and outside a leak lowers by up to the recovery rate, never below zero; ineligible validators are untouched and genesis epoch does nothing.", "quantifier": "every state", "why_tests_cant": "over all registries", "anchors": ["ethereum-consensus/src/altair/epoch_processing.rs:process_inactivity_updates"]}
{"id": "C32", "title": "Sync aggregate rewards", "statement": "process_sync_aggregate pays every participating committee member and the proposer and charges every absent one, by the same per-slot amounts, and accepts only a valid aggregate signature of exactly the participants over the previous slot's block root.", "quantifier": "every state and aggregate", "why_tests_cant": "arbitrary aggregates", "anchors": ["ethereum-consensus/src/altair/block_processing.rs:process_sync_aggregate"]}
{"id": "C33", "title": "Sync committees rotate exactly at period boundaries and contain only active validators", "statement": "next_sync_committee becomes current only when the next epoch starts a sync committee period; otherwise neither changes. Every selected member is active in the next epoch.", "quantifier": "every state and epoch", "why_tests_cant": "sampling loop over arbitrary seeds", "anchors": ["ethereum-consensus/src/altair/epoch_processing.rs:process_sync_committee_updates", "ethereum-consensus/src/altair/helpers.rs:get_next_sync_committee_indices"]}
{"id": "C34", "title": "Fork upgrades preserve the state", "statement": "Each upgrade_to_* keeps every field shared by the two forks, records previous/current version and epoch, and initialises the new fields with their documented defaults.", "quantifier": "every state of the old fork", "why_tests_cant": "frame condition over every state", "anchors": ["ethereum-consensus/src/altair/fork.rs", "ethereum-consensus/src/bellatrix/fork.rs", "ethereum-consensus/src/capella/fork.rs", "ethereum-consensus/src/deneb/fork.rs", "ethereum-consensus/src/electra/fork.rs"]}
{"id": "C35", "title": "The executor applies blocks at the right fork", "statement": "Executor::apply_block advances an older state across each scheduled fork boundary exactly once, in order, never downgrades (a block of an older fork than the state is rejected unchanged), and on success leaves a state of exactly the block's fork at exactly the block's slot.", "quantifier": "every state, block, fork schedule", "why_tests_cant": "all combinations of forks, schedules and slots", "anchors": ["ethereum-consensus/src/state_transition/executor.rs"]}
{"id": "C36", "title": "Fork schedule lookup", "statement": "Context::fork_for is monotone in the slot and returns the latest fork whose activation epoch has been reached; the version returned for it is the configured one.", "quantifier": "every slot and schedule", "why_tests_cant": "all slots", "anchors": ["ethereum-consensus/src/state_transition/context.rs:fork_for", "ethereum-consensus/src/state_transition/context.rs:fork_version_for"]}
{"id": "C37", "title": "Signature domains separate purposes and forks", "statement": "Domain types encode to distinct 4-byte prefixes (except the two application domains that coincide by design), the computed domain starts with the type and continues with the first 28 bytes of the fork data root, and get_domain uses the previous fork version exactly for epochs before the fork epoch.", "quantifier": "every domain type, state and epoch", "why_tests_cant": "all epochs and states", "anchors": ["ethereum-consensus/src/domains.rs", "ethereum-consensus/src/phase0/helpers.rs:get_domain", "ethereum-consensus/src/phase0/helpers.rs:compute_domain"]}
{"id": "C38", "title": "Slot clock conversions are consistent", "statement": "Converting a slot to its timestamp and back gives the slot; every instant inside a slot maps to that slot; conversions are monotone; before genesis there is no slot; duration_until_slot and duration_until_next_slot never point into the past and land exactly on a slot start. The genesis times that the library knows are those of the networks.", "quantifier": "every genesis time, slot duration, slot and instant in range", "why_tests_cant": "all 64-bit instants", "anchors": ["ethereum-consensus/src/clock.rs"]}
{"id": "C39", "title": "The slot stream yields each next slot in order", "statement": "The clock's slot stream yields consecutive slots, without repeating or skipping, however polling is interleaved with time.", "quantifier": "every schedule of polls", "why_tests_cant": "all schedules", "anchors": ["ethereum-consensus/src/clock.rs:SlotStream"]}
{"id": "C40", "title": "Hex and decimal-string encodings round-trip", "statement": "Encoding bytes as 0x-prefixed lower-case hex and decoding gives the bytes back; decoding accepts only even-length hex (with or without prefix as coded); integers encoded as decimal strings decode to themselves; sequences likewise.", "quantifier": "every byte string and every u64", "why_tests_cant": "all byte strings", "anchors": ["ethereum-consensus/src/serde.rs"]}
{"id": "C41", "title": "Identifiers print and parse consistently", "statement": "StateId, BlockId and built-in Network names parse back from their display form; unparseable text is rejected.", "quantifier": "every identifier value", "why_tests_cant": "all slots, roots and names", "anchors": ["beacon-api-client/src/types.rs", "ethereum-consensus/src/networks.rs"]}
{"id": "C42", "title": "Blob packing round-trips", "statement": "Bytes framed and packed into blobs by `ec blobs encode` are recovered by `ec blobs decode`, for every payload.", "quantifier": "every payload and both framings", "why_tests_cant": "lengths near blob boundaries are not sampled by tests", "anchors": ["bin/ec/blobs/encode.rs", "bin/ec/blobs/decode.rs", "bin/ec/blobs/framing.rs"]}
{"id": "C43", "title": "Packed field elements are canonical", "statement": "Every 32-byte field element produced when packing is below the BLS scalar modulus and every blob has exactly the blob size, so packing never fails on valid input.", "quantifier": "every payload", "why_tests_cant": "all payloads", "anchors": ["bin/ec/blobs/encode.rs:field_element_from_bits", "bin/ec/blobs/encode.rs:pack_into_blobs"]}
{"id": "C44", "title": "Withdrawals are exact, consecutive and bounded", "statement": "In Capella/Deneb, get_expected_withdrawals returns at most max_withdrawals_per_payload withdrawals with consecutive indices, for distinct validators found in sweep order, each either the full balance of a fully withdrawable validator or the excess over the maximum of a partially withdrawable one; process_withdrawals accepts exactly that list and debits exactly those amounts.", "quantifier": "every state and payload", "why_tests_cant": "sweep over all registries", "anchors": ["ethereum-consensus/src/capella/block_processing.rs:get_expected_withdrawals", "ethereum-consensus/src/capella/block_processing.rs:process_withdrawals"]}
{"id": "C45", "title": "The withdrawal sweep visits every validator", "statement": "In Capella and Deneb, repeated withdrawal processing moves the sweep cursor so that it wraps around the registry without skipping a validator, so that a validator that is owed a payment is paid within as many blocks as there are validators.", "quantifier": "every state and any number of blocks", "why_tests_cant": "liveness over unbounded histories", "anchors": ["ethereum-consensus/src/capella/block_processing.rs:process_withdrawals"]}
{"id": "C46", "title": "Credential changes are one-way and authorised", "statement": "process_bls_to_execution_change succeeds only for a validator with BLS credentials matching the given key and a valid signature, turns them into execution credentials for the given address, changes nothing else, and can never be applied twice to the same validator.", "quantifier": "every state and change", "why_tests_cant": "arbitrary changes", "anchors": ["ethereum-consensus/src/capella/block_processing.rs:process_bls_to_execution_change"]}
{"id": "C47", "title": "Execution payloads chain", "statement": "process_execution_payload accepts only payloads with the right parent hash (after the merge), prev_randao, timestamp, (Deneb) blob count and engine approval; on success only the latest payload header changes, to the header of that payload.", "quantifier": "every state and payload", "why_tests_cant": "arbitrary payloads", "anchors": ["ethereum-consensus/src/bellatrix/block_processing.rs:process_execution_payload", "ethereum-consensus/src/capella/block_processing.rs:process_execution_payload", "ethereum-consensus/src/deneb/block_processing.rs:process_execution_payload"]}
{"id": "C48", "title": "Validated transitions check signature and state root", "statement": "With validation enabled, state_transition succeeds only if the block signature verifies and the post-state root equals the block's; with it disabled the resulting state is the same whenever both succeed.", "quantifier": "every state and block", "why_tests_cant": "arbitrary blocks", "anchors": ["ethereum-consensus/src/phase0/state_transition.rs"]}
{"id": "C49", "title": "Genesis state", "statement": "initialize_beacon_state_from_eth1 produces a registry with one entry per distinct valid deposit key in order, activates exactly those at the maximum effective balance, and is_valid_genesis_state checks time and active count. The genesis block is the block of slot 0 over that state, and the first block of a chain has to be its child.", "quantifier": "every deposit list", "why_tests_cant": "arbitrary deposits", "anchors": ["ethereum-consensus/src/phase0/genesis.rs"]}
{"id": "C50", "title": "Balance-weighted exit churn (Electra)", "statement": "An exit (compute_exit_epoch_and_update_churn, initiate_validator_exit) is given the first epoch for which the balance still free in the queue and the churn of the epochs up to it cover its balance. No exit gets an earlier epoch than one before it, the queue never moves back, and the total balance given exit epochs up to any epoch x never exceeds what was free at the start plus one churn per epoch up to x.", "quantifier": "every state and every sequence of exits with any other calls between them", "why_tests_cant": "history invariant", "anchors": ["ethereum-consensus/src/electra/helpers.rs:compute_exit_epoch_and_update_churn", "ethereum-consensus/src/electra/helpers.rs:initiate_validator_exit"]}
{"id": "C51", "title": "Pending deposits conserve value and respect churn (Electra)", "statement": "process_pending_balance_deposits credits a prefix of the queue, in order, with total within the available churn, and keeps the rest in order.", "quantifier": "every state", "why_tests_cant": "all queues", "anchors": ["ethereum-consensus/src/electra/epoch_processing.rs:process_pending_balance_deposits"]}
{"id": "C52", "title": "Pending consolidations conserve value (Electra)", "statement": "process_pending_consolidations moves balance from source to target without creating or destroying any, only for sources that are withdrawable and not slashed, in queue order.", "quantifier": "every state", "why_tests_cant": "all queues", "anchors": ["ethereum-consensus/src/electra/epoch_processing.rs:process_pending_consolidations"]}
{"id": "C53", "title": "Electra attestations count the intended validators", "statement": "An aggregate over several committees marks exactly the validators whose bit is set in the concatenation of the committees.", "quantifier": "every state and attestation", "why_tests_cant": "arbitrary bitfields", "anchors": ["ethereum-consensus/src/electra/helpers.rs:get_attesting_indices"]}
{"id": "C54", "title": "Electra partial withdrawals debit the requesting validator", "statement": "A queued partial withdrawal, once payable, is paid from the validator that requested it.", "quantifier": "every state and queue", "why_tests_cant": "arbitrary queues", "anchors": ["ethereum-consensus/src/electra/block_processing.rs:get_expected_withdrawals"]}
{"id": "C55", "title": "Operations never panic", "statement": "On a well-formed state, in phase0 to deneb, the validity-checked operations (slashings, attestations, exits, headers, deposits, withdrawals, payloads) and a block as a whole return Ok or Err for every input and never panic, and a block leaves a well-formed state. (A block needs one condition on votes, without which it does panic: no deposit count below the number of deposits already processed. Electra is C78.)", "quantifier": "every well-formed state and every input, phase0 to deneb", "why_tests_cant": "arbitrary adversarial inputs", "anchors": ["ethereum-consensus/src/phase0/block_processing.rs"]}
{"id": "C56", "title": "Total balances do not depend on hash-set order", "statement": "get_total_balance gives the same result for every iteration order of the same index set.", "quantifier": "every state and set, every order", "why_tests_cant": "hash-set order is randomised per process", "anchors": ["ethereum-consensus/src/phase0/helpers.rs:get_total_balance"]}
{"id": "C57", "title": "Derived keys are valid scalars", "statement": "hkdf_mod_r never returns zero and always returns a value below the group order.", "quantifier": "every seed", "why_tests_cant": "all seeds", "anchors": ["bin/ec/validator/keys.rs:hkdf_mod_r"]}
{"id": "C58", "title": "Optimistic rewards never exceed the base", "statement": "In phase0, every attester's rewards for one epoch are bounded by the base rewards of its components and no attestation rewards are paid in a leak beyond the cancelling base rewards.", "quantifier": "every state", "why_tests_cant": "all registries", "anchors": ["ethereum-consensus/src/phase0/epoch_processing.rs:get_attestation_deltas"]}
{"id": "C59", "title": "Every entry point writes only its own part of the state", "statement": "Whether it succeeds or fails, block processing never changes the slot, the fork record, the recent or historical roots, checkpoints or sync committees; epoch processing never changes the slot, the latest header, the recent roots, eth1 data, the payload header or withdrawal cursors; each operation and each epoch sub-step writes only the fields it is responsible for; nothing but upgrades and genesis changes the fork record or the genesis data.", "quantifier": "every state, input and fork, success and every failure point", "why_tests_cant": "a frame condition over all inputs and all failure points", "anchors": ["ethereum-consensus/src/phase0/block_processing.rs", "ethereum-consensus/src/phase0/epoch_processing.rs", "ethereum-consensus/src/electra/block_processing.rs"]}
{"id": "C60", "title": "The Electra withdrawal sweep visits every validator", "statement": "In Electra too, repeated withdrawal processing moves the sweep cursor so that it wraps around the registry without skipping a validator that is owed a payment.", "quantifier": "every state and any number of blocks", "why_tests_cant": "a schedule property over unboundedly many blocks", "anchors": ["ethereum-consensus/src/electra/block_processing.rs:process_withdrawals"]}
{"id": "C61", "title": "Keystores open with their passphrase", "statement": "A keystore written by `ec validator generate-lighthouse-keystores` opens, following EIP-2335, with the passphrase printed beside it and gives back the secret key.", "quantifier": "every key, passphrase, salt and initialisation vector, for all primitives of the right sizes", "why_tests_cant": "random salts and initialisation vectors", "anchors": ["ethereum-consensus/src/bin/ec/validator/keystores.rs:Keystore", "ethereum-consensus/src/bin/ec/validator/keystores.rs:Cipher"]}
{"id": "C62", "title": "Participation records move once per epoch", "statement": "At the end of an epoch the record of the current epoch (attestations in phase0, flags later) becomes the record of the previous one and the current one starts empty, with one entry per validator from altair on; in every other slot both records stay as they are.", "quantifier": "every state and fork", "why_tests_cant": "every registry, every record", "anchors": ["ethereum-consensus/src/phase0/epoch_processing.rs:process_participation_record_updates", "ethereum-consensus/src/altair/epoch_processing.rs:process_participation_flag_updates"]}
{"id": "C63", "title": "The history commits to every slot of the chain", "statement": "Along any chain from genesis, through blocks and fork upgrades, historical_roots and historical_summaries together hold one entry per completed period of SLOTS_PER_HISTORICAL_ROOT slots, in order, each committing to the block and state roots of all slots of its period; no other step appends.", "quantifier": "every chain, of any length, through any forks", "why_tests_cant": "a property of unbounded histories across forks", "anchors": ["ethereum-consensus/src/phase0/epoch_processing.rs:process_historical_roots_update", "ethereum-consensus/src/capella/epoch_processing.rs:process_historical_summaries_update", "ethereum-consensus/src/phase0/slot_processing.rs:process_slots"]}
{"id": "C64", "title": "Rewards and penalties from altair on", "statement": "process_rewards_and_penalties changes only balances: every validator whose duties count gets, for each flag, exactly the weighted share of its base reward or the weighted penalty, and the inactivity penalty for a missing target; no balance grows while finality is overdue, nobody with source and target loses, bystanders are untouched, and when nobody left between the epochs a validator gains at most 54/64 of its base reward.", "quantifier": "every state, registry and set of flags, altair to electra", "why_tests_cant": "64-bit arithmetic over every registry", "anchors": ["ethereum-consensus/src/altair/epoch_processing.rs:process_rewards_and_penalties", "ethereum-consensus/src/altair/helpers.rs:get_flag_index_deltas", "ethereum-consensus/src/bellatrix/helpers.rs:get_inactivity_penalty_deltas"]}
{"id": "C65", "title": "Recorded attestations belong to their epoch", "statement": "Along any chain in phase0, every attestation recorded for the previous or the current epoch votes for that epoch in a slot of it and was included within the inclusion window, so rewards are for the right epoch.", "quantifier": "every chain, valid and invalid blocks", "why_tests_cant": "a property of unbounded histories", "anchors": ["ethereum-consensus/src/phase0/block_processing.rs:process_attestation", "ethereum-consensus/src/phase0/epoch_processing.rs:process_participation_record_updates"]}
{"id": "C66", "title": "Advancing the chain does not panic", "statement": "On a well-formed state with balances far below the 64-bit range, epoch processing, process_slots to any later slot and the whole state transition for any signed block return Ok or Err and never panic, and a state they leave is well-formed again. (False when no validator is active in the next epoch: choosing the sync committee divides by zero.)", "quantifier": "every well-formed state, every target slot, every block, phase0 to deneb", "why_tests_cant": "every registry, every record of attestations, every combination of 64-bit amounts", "anchors": ["ethereum-consensus/src/phase0/epoch_processing.rs:process_epoch", "ethereum-consensus/src/altair/epoch_processing.rs:process_epoch", "ethereum-consensus/src/phase0/slot_processing.rs:process_slots", "ethereum-consensus/src/phase0/state_transition.rs:state_transition", "ethereum-consensus/src/altair/helpers.rs:get_next_sync_committee_indices"]}
{"id": "C67", "title": "A block root commits to the whole history", "statement": "If two chains, from any genesis states, through any blocks and fork upgrades, report the same block root for a slot, they have the same block headers in every slot up to it; every header's parent root is the root of the latest block of the slot before. The hash function is assumed not to collide on the headers of the two chains.", "quantifier": "every pair of chains of any length, valid and invalid blocks, every fork", "why_tests_cant": "ranges over pairs of unbounded histories", "anchors": ["ethereum-consensus/src/phase0/slot_processing.rs:process_slot", "ethereum-consensus/src/phase0/block_processing.rs:process_block_header", "ethereum-consensus/src/phase0/helpers.rs:get_block_root_at_slot"]}
{"id": "C68", "title": "Duties are known in advance", "statement": "The set of active validators of every epoch up to MAX_SEED_LOOKAHEAD ahead of the current one, and the members and order of every committee up to MIN_SEED_LOOKAHEAD ahead, do not change whatever calls, successful or failing, and fork upgrades follow, as long as the randao mix they come from is retained; registry entries keep their public key.", "quantifier": "every state, every sequence of calls and upgrades of any fork, every slot and committee index", "why_tests_cant": "ranges over every future of every state", "anchors": ["ethereum-consensus/src/phase0/helpers.rs:get_active_validator_indices", "ethereum-consensus/src/phase0/helpers.rs:get_seed", "ethereum-consensus/src/phase0/helpers.rs:get_beacon_committee", "ethereum-consensus/src/phase0/helpers.rs:initiate_validator_exit", "ethereum-consensus/src/electra/helpers.rs:compute_exit_epoch_and_update_churn"]}
{"id": "C69", "title": "Requests from the execution layer (Electra)", "statement": "A withdrawal request makes a validator leave, queues a partial withdrawal, or has no effect, exactly according to: sender address, activity, age, not leaving, queue room, compounding credentials and free balance; the amount granted never exceeds the balance above the minimum that is not already promised, and the queue never exceeds its limit. A deposit receipt is applied like a deposit and only the first one sets the start index. (Consolidations can never succeed: the withdrawable epoch overflows.)", "quantifier": "every request, receipt and consolidation, every state", "why_tests_cant": "every combination of credentials, balances, pending withdrawals and queue states", "anchors": ["ethereum-consensus/src/electra/block_processing.rs:process_execution_layer_withdrawal_request", "ethereum-consensus/src/electra/block_processing.rs:process_deposit_receipt", "ethereum-consensus/src/electra/block_processing.rs:process_consolidation", "ethereum-consensus/src/electra/helpers.rs:get_pending_balance_to_withdraw"]}
{"id": "C70", "title": "Justification and finality are accountable", "statement": "In every state of a chain from genesis, the justified and finalized checkpoints are blocks of that chain and are backed by signatures: each is reached from the genesis by links, for each of which unslashed active validators holding two thirds of the active balance signed votes from its source to its target; finalized means justified and the source of a link over one epoch, or over two with a justified checkpoint in between. If two chains from one genesis finalize checkpoints of which the earlier is not on the other chain, then there are two counted links, one per chain, such that every key that took part in both signed two votes it can be slashed for; and if both links were counted among the same validators, those keys hold a third of their balance.", "quantifier": "every chain from every genesis state through any slots, blocks (valid or not) and fork upgrades of any forks; every pair of such chains", "why_tests_cant": "ranges over all pairs of histories; a test can only run one", "anchors": ["ethereum-consensus/src/phase0/epoch_processing.rs:weigh_justification_and_finalization", "ethereum-consensus/src/phase0/epoch_processing.rs:process_justification_and_finalization", "ethereum-consensus/src/altair/epoch_processing.rs:process_justification_and_finalization", "ethereum-consensus/src/phase0/block_processing.rs:process_attestation", "ethereum-consensus/src/altair/block_processing.rs:process_attestation", "ethereum-consensus/src/phase0/block_processing.rs:process_attester_slashing"]}
{"id": "C71", "title": "JSON round trip of every type", "statement": "Every value of every container of every fork, and of every type of the beacon API, that is written to JSON is read back as the same value from JSON text: also when the members of objects come in another order or with further members among them. So two values are never written alike.", "quantifier": "every type with both instances (105 consensus types of six forks, 24 types of the API), every value, every preset (all list limits and vector lengths), every JSON value that has the written members", "why_tests_cant": "the one test writes one default block; every value of 129 types, with bit lists and byte lists of every length, cannot be sampled", "anchors": ["ethereum-consensus/src/serde.rs:as_hex", "ethereum-consensus/src/serde.rs:as_str", "ethereum-consensus/src/serde.rs:seq_of_str", "beacon-api-client/src/types.rs"]}
{"id": "C72", "title": "Integers are strings in JSON", "statement": "Integers are written to JSON as decimal strings, as the beacon API has them, never as numbers, so that no reader rounds them; and they are read from strings.", "quantifier": "every type, every value, every preset", "why_tests_cant": "an attribute missing on one field of one type is only seen by a test for that type", "anchors": ["ethereum-consensus/src/serde.rs:as_str", "ethereum-consensus/src/altair/light_client.rs:LightClientUpdate", "ethereum-consensus/src/phase0/validator.rs:Eth1Block"]}
{"id": "C73", "title": "Reading JSON of an unknown fork", "statement": "The enums over forks (states, blocks, bodies, blinded blocks, payloads and headers) write no trace of their fork, yet what is written of a value is read back as the same value of the same fork, with the members of objects in any order. The JSON of a fork without a variant is refused.", "quantifier": "every enum, every fork with a variant, every value, every preset", "why_tests_cant": "a value of one fork might be read as another; whether it can depends on the whole value", "anchors": ["ethereum-consensus/src/types/beacon_state.rs:BeaconState", "ethereum-consensus/src/types/beacon_block.rs:BeaconBlock", "ethereum-consensus/src/types/signed_beacon_block.rs:SignedBeaconBlock", "ethereum-consensus/src/types/execution_payload.rs:ExecutionPayload"]}
{"id": "C74", "title": "Reading JSON from any source", "statement": "Every value that is written to JSON is read back whatever the source: text in memory, a reader, or a parsed serde_json value.", "quantifier": "every type, every value, every preset, every source", "why_tests_cant": "a type that borrows from its source compiles and passes every test that reads text from memory", "anchors": ["ethereum-consensus/src/serde.rs:seq_of_str"]}
{"id": "C75", "title": "Signatures and their aggregates", "statement": "A public key accepts exactly one signature for a message, the one its secret key makes; no key accepts two. The aggregate of the signatures of several keys on one message, or each on its own message, is what the aggregate checks accept, and the only thing they accept; keys that add up to zero accept nothing. Checking against several keys equals checking against their aggregate key. No keys are accepted only with the signature at infinity, and only by the variant for sync committees. A signature for one object and domain is not accepted for another unless the signing roots collide. The order of aggregation does not matter.", "quantifier": "every curve with a bilinear non-degenerate pairing on subgroups of prime order and canonical encodings; every key, message, list of keys and messages, every string of bytes as key or signature", "why_tests_cant": "tests sign with a few keys; uniqueness and exactness are about every string of bytes", "anchors": ["ethereum-consensus/src/crypto/bls.rs:verify_signature", "ethereum-consensus/src/crypto/bls.rs:aggregate", "ethereum-consensus/src/crypto/bls.rs:aggregate_verify", "ethereum-consensus/src/crypto/bls.rs:fast_aggregate_verify", "ethereum-consensus/src/crypto/bls.rs:eth_aggregate_public_keys", "ethereum-consensus/src/crypto/bls.rs:eth_fast_aggregate_verify", "ethereum-consensus/src/signing.rs:verify_signed_data"]}
{"id": "C76", "title": "Roots determine values", "statement": "Two values of one SSZ type with the same hash tree root are equal, unless finding the two roots hashes two different pairs of nodes to the same node. So a block root determines the block, a state root the state. A signing root determines the object and the domain in the same sense, and objects of any types signed under different domains have different signing roots.", "quantifier": "every hash function; every SSZ container of every fork in both presets, and every preset whose limits fit 256 bits; every two values", "why_tests_cant": "tests compare roots of a few vectors; injectivity is about every pair of values, and fails silently when padding, limits or the length are left out", "anchors": ["ethereum-consensus/src/signing.rs:compute_signing_root", "ethereum-consensus/src/phase0/beacon_state.rs:BeaconState", "ethereum-consensus/src/ssz/mod.rs:prelude"]}
{"id": "C77", "title": "Merkle proofs", "statement": "A Merkle branch that is accepted for a path shows that the leaf's value is the part of the rooted value at the end of the path, and every part has such a branch. In particular a blob sidecar whose inclusion proof is accepted carries the commitment at its index in the block body, an index beyond the limit is refused, the proof depths of the presets are right, and the generalized indices for light clients are right for the forks that have them. A deposit that is accepted is the one at the state's deposit index in the tree whose root the state holds. Exceptions: a hash collision, or a pair of nodes that hashes to zeros, among the nodes hashed.", "quantifier": "every hash function, container type, path, value, branch and leaf; every sidecar and block body; every deposit and state", "why_tests_cant": "tests check a few proofs and a few corrupted ones; soundness is about every branch an adversary can make", "anchors": ["ethereum-consensus/src/deneb/blob_sidecar.rs:verify_blob_sidecar_inclusion_proof", "ethereum-consensus/src/phase0/block_processing.rs:process_deposit", "ethereum-consensus/src/altair/light_client.rs:FINALIZED_ROOT_INDEX", "ethereum-consensus/src/capella/light_client.rs:EXECUTION_PAYLOAD_INDEX", "ethereum-consensus/src/deneb/presets/mainnet.rs:KZG_COMMITMENT_INCLUSION_PROOF_DEPTH"]}
{"id": "C78", "title": "Electra's blocks and epochs do not panic", "statement": "On a state as the chain produces it, block processing, epoch processing, the advance to a later slot and the whole state transition of Electra return Ok or Err and never panic, whatever the block contains; the state they leave is well-formed again and its queues are about validators that exist. The upgrade into Electra leaves such a state. Two exceptions, both shown: a block with a consolidation that passes its checks, and epoch processing when a penalty does not fit 64 bits because of the balances slashed.", "quantifier": "every configuration with sensible constants, among them those of every network in the repository; every well-formed state within bounds far above the supply; every block, signature and number of slots", "why_tests_cant": "tests run valid blocks and a few invalid ones; an adversary chooses the block, and a panic takes the node down", "anchors": ["ethereum-consensus/src/electra/block_processing.rs:process_block", "ethereum-consensus/src/electra/block_processing.rs:process_execution_layer_withdrawal_request", "ethereum-consensus/src/electra/block_processing.rs:process_consolidation", "ethereum-consensus/src/electra/epoch_processing.rs:process_epoch", "ethereum-consensus/src/electra/epoch_processing.rs:process_pending_consolidations", "ethereum-consensus/src/electra/state_transition.rs:state_transition", "ethereum-consensus/src/bellatrix/epoch_processing.rs:process_slashings"]}
{"id": "C79", "title": "Peer ids as text", "statement": "A peer id is made of exactly a SHA-256 multihash, or of an identity multihash of at most 42 bytes, and holds it unchanged. Its bytes and its base58 text are read back as the same peer id, so different peer ids have different texts; whatever is read from text is such a peer id; and the text has only characters of the base58 alphabet.", "quantifier": "every multihash, peer id, byte string and text", "why_tests_cant": "tests read three peer ids; base58 and variable-length integers have to round-trip for every key", "anchors": ["ethereum-consensus/src/networking.rs:PeerId", "ethereum-consensus/src/networking.rs:from_multihash", "ethereum-consensus/src/networking.rs:FromStr"]}
{"id": "C80", "title": "Requests of the API client", "statement": "The request that each method of the client of the beacon API sends is one in which a server that follows the standard finds the operation the method is for, with exactly the arguments of the call: in the path, the query, the header for the version and the body. A call that sends no request returns an error. Calls with the same request ask for the same operation with the same arguments. The requests are below the URL of the endpoint.", "quantifier": "every endpoint, method and arguments", "why_tests_cant": "tests of the client need a node; encodings of identifiers, lists and optional parameters have to be right for every combination", "anchors": ["beacon-api-client/src/api_client.rs:Client", "beacon-api-client/src/types.rs:StateId", "beacon-api-client/src/types.rs:PublicKeyOrIndex", "beacon-api-client/src/types.rs:BroadcastValidation", "beacon-api-client/src/types.rs:PeerState"]}
{"id": "C81", "title": "Answers to the API client", "statement": "Each method of the client of the beacon API returns the value that a server that follows the standard answers with, whatever other members the answer has. An error that the server reports is returned with its code, its message and the items it is about, and is never taken for a value. A submission counts as accepted just if the server answers with 200 or 202. No value or error is returned that the answer does not hold.", "quantifier": "every method, value and answer", "why_tests_cant": "tests of the client need a node; every combination of method, value, extra members, status and body has to be read the same way, also those that no node sent yet", "anchors": ["beacon-api-client/src/api_client.rs:Client", "beacon-api-client/src/api_client.rs:api_error_or_ok", "beacon-api-client/src/api_client.rs:api_error_or_value", "beacon-api-client/src/api_error.rs:ApiError", "beacon-api-client/src/types.rs:Value", "beacon-api-client/src/types.rs:VersionedValue", "beacon-api-client/src/types.rs:ApiResult"]}
{"id": "C82", "title": "Accessors of the types for all forks", "statement": "The types that hold a block, body, payload, header or state of any fork, and the references to them, give access to every field of the container they hold. An accessor returns the field of its name, and None exactly when the fork of the container has no such field; one whose result is not optional always returns it. What is returned as another such type, such as the body of a block, is its variant for the same fork. Changes through an accessor change that field and nothing else. version names the fork, and phase0, altair and so on return the container just if it is of that fork.", "quantifier": "every such type, accessor, fork and value", "why_tests_cant": "there are 672 generated accessors with one arm per fork, and none has a test; each has to be right for every value of every fork", "anchors": ["ethereum-consensus/src/types/beacon_state.rs", "ethereum-consensus/src/types/beacon_block.rs", "ethereum-consensus/src/types/beacon_block_body.rs", "ethereum-consensus/src/types/blinded_beacon_block.rs", "ethereum-consensus/src/types/blinded_beacon_block_body.rs", "ethereum-consensus/src/types/execution_payload.rs", "ethereum-consensus/src/types/execution_payload_header.rs", "ethereum-consensus/src/types/signed_beacon_block.rs", "ethereum-consensus/src/types/signed_blinded_beacon_block.rs"]}
{"id": "C83", "title": "SSZ encodings", "statement": "Decoding the SSZ encoding of a value of any of the consensus types gives back the value, so that different values have different encodings. Decoders accept nothing but the encoding of the value that they return, so that no two byte strings are read as the same value. A value is encoded unless its encoding would not fit into 32-bit offsets. Encodings have the length that the SSZ specification says, which is the same for all values of a type of fixed size. The encoding of a field is in the encoding of its struct at the position that follows from the types of the fields before it, or at the offset written there; the same goes for the elements of collections.", "quantifier": "every type of the consensus specifications, preset and value", "why_tests_cant": "values are trees of unbounded size with variable parts at any depth, and what is stored or gossiped as bytes must be read back as the same object by everyone", "anchors": ["ethereum-consensus/src/ssz/mod.rs", "ethereum-consensus/src/ssz/byte_list.rs", "ethereum-consensus/src/ssz/byte_vector.rs", "ethereum-consensus/src/phase0/beacon_block.rs", "ethereum-consensus/src/phase0/operations.rs", "ethereum-consensus/src/deneb/beacon_block.rs"]}
{"id": "C84", "title": "Configurations", "statement": "A context that is loaded from a configuration file has, for every parameter that files set, the value in the file and, for every other parameter, the value of the preset that the file names. A file is refused if an entry is missing, occurs twice or cannot be read, or if its preset is not known; the order of entries and entries for other keys do not matter. The context of a network that the library knows bears the name of the network and is the one that a file with its parameters would give; the context of a custom network is loaded from config.yaml in its directory. The capacities of the containers of a preset are the parameters of the same names.", "quantifier": "every configuration file, parameter and network", "why_tests_cant": "each of a hundred parameters is copied by hand from one of seven sources to the context, for every file; a swapped one only shows in what the chain does with it", "anchors": ["ethereum-consensus/src/configs/mod.rs", "ethereum-consensus/src/state_transition/context.rs", "ethereum-consensus/src/networks.rs", "ethereum-consensus/src/phase0/presets/mainnet.rs", "ethereum-consensus/src/electra/presets/minimal.rs", "ethereum-consensus/src/configs/hoodi.rs"]}
{"id": "C85", "title": "KZG commitments and proofs", "statement": "The commitment of a blob is the commitment to the one polynomial of degree below 4096 whose values at the roots of unity are the elements of the blob, and there is one exactly for the blobs of the right size with canonical elements. The value computed for a point is the value of that polynomial there, also at the roots of unity, with a proof that is accepted. A proof is accepted exactly if its parts are well formed and the opening equation holds for the committed polynomial; two different values accepted at one point give a solution of the problem assumed to be hard. Every valid blob has a commitment and a proof that are accepted, alone and in batches. A batch with a proof that is not acceptable alone is accepted for fewer outcomes of the combining hash than it has blobs, and lists of different lengths are refused. Nothing panics. Blobs bundle exactly if they are valid, unchanged and with their own commitments and proofs in order; all that the encoder makes bundles.", "quantifier": "every blob, point, commitment, proof, batch and secret of the trusted setup", "why_tests_cant": "the space of blobs and points is astronomically large, the points that are roots of unity take a separate path that random tests never hit, and soundness is about all proofs, including those no test has", "anchors": ["ethereum-consensus/src/crypto/kzg.rs", "ethereum-consensus/src/bin/ec/blobs/bundler.rs"]}
{"id": "C86", "title": "An accepted block has been applied in full", "statement": "A block is accepted exactly if its header, withdrawals, payload, randao reveal and eth1 vote, then the deposits due in number, and then every proposer slashing, attester slashing, attestation, deposit, voluntary exit, credential change, execution layer request, receipt and consolidation, and the sync aggregate are accepted, in that order, each in the state the ones before it left, and nothing else happens. In terms of the states before and after the whole block: the header is the latest; the reveal was signed by the proposer of the state and mixed in; the vote is recorded and adopted by majority; the payload fits and is summarised; the withdrawals are those that were due; every equivocating proposer and every slashable validator that signed both attestations of a slashing is slashed; every attestation is a timely vote by a committee of the state before, and the pending attestations or participation flags have grown by exactly what the attestations are worth; the deposits are the next ones of the contract, as many as are due, every key with a signed deposit has a validator and every new validator comes from one; every exiting validator is leaving; every changed credential is set; the sync aggregate is signed by the committee of the state before. The proposer is the same throughout. Registry entries the block does not name and balances it does not touch are as they were.", "quantifier": "every state, every block and every fork", "why_tests_cant": "operations of one block meet states that earlier operations of the same block have changed; that none is skipped, undone, reordered or applied twice concerns all combinations", "anchors": ["ethereum-consensus/src/phase0/block_processing.rs", "ethereum-consensus/src/electra/block_processing.rs", "ethereum-consensus/src/deneb/block_processing.rs", "process_block", "process_operations"]}
{"id": "C87", "title": "The end of an epoch runs all its steps, in order, and so changes the state as a whole", "statement": "The end of an epoch is processed exactly if each of the steps of the fork (justification, inactivity, rewards and penalties, registry, slashings, eth1 reset, pending deposits and consolidations, effective balances, slashings and randao resets, historical summaries, participation, sync committees) is, in the order the protocol gives for that fork, each in the state the one before left, and nothing else happens. Therefore, of the states before and after: the current or the previous epoch is justified exactly if two thirds of the active balance voted for it, and epochs are finalized by the four rules; the inactivity scores change by the votes recorded before and the finality after; exactly those with enough stake are put on the activation queue, exactly those with too little are ejected, and those that wait are activated in order, as many as allowed; each balance changes by exactly the rewards and penalties for attesting, computed with the finality and scores after, and then by the penalty for slashing if due, and in electra then by the deposits and consolidations that the queues and the churn allow; each effective balance follows the balance after; votes, mixes and slashings are reset. Every state reachable from genesis meets the assumptions.", "quantifier": "every state and every fork", "why_tests_cant": "a dropped or transposed step only shows in states where the two steps interact", "anchors": ["ethereum-consensus/src/phase0/epoch_processing.rs", "ethereum-consensus/src/electra/epoch_processing.rs", "process_epoch"]}
{"id": "C88", "title": "The books of a block balance, entry by entry", "statement": "After an accepted block the balance of every validator, old or new, the kind of its withdrawal credentials and the queue of deposits are exactly what these entries make of the ones before, in this order: each withdrawal of the payload is charged to its validator; each validator the evidence of the block is newly against is charged the penalty of the fork and the proposer is paid the reward for reporting; for each attestation the proposer is paid an eighth of what the voters earn by the flags that neither they had before the block nor an earlier attestation of the block has earned them; each deposit goes to the first account with its key, or opens an account if it is signed (in electra it is queued, and may make the account compounding, when what it has above the minimum is queued too); credential changes are recorded; each member of the sync committee is paid or charged, and the proposer paid, for its seat. All amounts are computed from the state before the block. Each validator is slashed at most once, the slashed validators afterwards are those before and those the evidence is against, and exactly their effective balances are added to the slashings of the epoch. No money comes from nowhere: balances and queued deposits together grow by no more than the deposits and the rewards of the block.", "quantifier": "every state, every block and every fork", "why_tests_cant": "what one entry pays depends on the entries before it (flags already earned, validators already slashed, accounts just opened, balances at zero), so that the sum is right concerns all combinations of operations", "anchors": ["ethereum-consensus/src/electra/block_processing.rs", "ethereum-consensus/src/altair/block_processing.rs", "ethereum-consensus/src/phase0/helpers.rs", "process_block", "slash_validator", "increase_balance", "decrease_balance"]}
{"id": "C89", "title": "A public key is one validator, for ever", "statement": "In every state a client can reach from genesis, through any sequence of slot, epoch and block processing calls (successful or failing) and fork upgrades, no two validators of the registry have the same public key. A validator keeps its index and its key for ever: in every later state, also of later forks, its key is found at its index and nowhere else. Processing slots and epochs and upgrading the fork never change the list of keys. An accepted block changes it in exactly one way: going through its deposits (and, in electra, the deposit receipts of its payload) in order, each whose key is not yet in the registry and has signed the deposit is appended. From altair on every member of the current and the next sync committee is a validator of the registry, and only one, so the rewards and penalties of a sync aggregate go to the one validator with the key of each seat.", "quantifier": "every configuration that meets the sanity conditions, every genesis, every finite sequence of calls that succeed or fail and of upgrades, every block, every key and index", "why_tests_cant": "Uniqueness is an invariant of all histories: it can be lost by any one of the functions that write the registry, at any fork and after any failure in the middle of a call. A test sees a few deposits on a small registry.", "anchors": ["ethereum-consensus/src/phase0/block_processing.rs: apply_deposit, process_deposit, add_validator_to_registry", "ethereum-consensus/src/electra/block_processing.rs: apply_deposit, process_deposit_receipt", "ethereum-consensus/src/altair/helpers.rs: get_next_sync_committee", "ethereum-consensus/src/altair/block_processing.rs: process_sync_aggregate", "ethereum-consensus/src/altair/epoch_processing.rs: process_sync_committee_updates", "ethereum-consensus/src/phase0/genesis.rs: initialize_beacon_state_from_eth1", "ethereum-consensus/src/electra/fork.rs: upgrade_to_electra"]}
{"id": "C90", "title": "The supply of money grows by at most one base reward per validator and epoch", "statement": "Follow a chain of one fork, altair or later, over slots and accepted blocks. The supply, which is the sum of all balances and queued deposits, grows by no more than what the blocks bring from elsewhere (deposits, and the rewards for reporting the validators they slash) and, for every epoch that ends, one base reward of every validator; in addition, once, by at most 124 of 448 parts of these base rewards, for what could already be earned at the start. Rewards for attesting, for including attestations, for the sync committee and for its proposer together come to no more than that, however the proposers arrange attestations, votes and empty slots, since a flag is paid for once. All base rewards of an epoch together are at most the base reward factor times the square root of the active balance plus two. The condition is that at the end of each epoch those who voted in the epoch before have no more than the balance that is active; this holds if nobody leaves, and without it more can be issued.", "quantifier": "every fork from altair on, every start that meets the assumptions (every reachable state does), every finite sequence of slots and accepted blocks, every bound on base rewards", "why_tests_cant": "It bounds what any sequence of blocks can extract: the order and overlap of attestations, empty slots, slashings and exits over any number of epochs. A test computes the rewards of a few blocks; that no sequence is paid twice for the same vote needs an invariant over all of them.", "anchors": ["ethereum-consensus/src/altair/block_processing.rs: process_attestation, process_sync_aggregate", "ethereum-consensus/src/deneb/block_processing.rs: process_attestation", "ethereum-consensus/src/electra/block_processing.rs: process_attestation", "ethereum-consensus/src/altair/epoch_processing.rs: process_rewards_and_penalties, process_participation_flag_updates", "ethereum-consensus/src/altair/helpers.rs: get_flag_index_deltas", "ethereum-consensus/src/electra/epoch_processing.rs: process_pending_balance_deposits, process_pending_consolidations", "ethereum-consensus/src/phase0/slot_processing.rs: process_slots"]}
{"id": "C91", "title": "Nodes agree whatever the order in which they visit their hash sets", "statement": "The code collects validators in hash sets: the attesters of an attestation, the active validators, those who voted, the culprits of an attester slashing. The standard library visits a hash set in a random order that differs from node to node and from run to run. None of that can be seen: take any block, state and configuration and any two orders; if the block is accepted with the one it is accepted with the other, and the states after it are equal. So for the processing of slots and epochs, for single attestations, for the fork upgrades and for the executor. Two nodes that import the same chain, each with orders of its own for each block, end in the same state, and when one imports the whole chain then none rejects a block of it. The operations that slash, exits, sync aggregates and the total active balance do not depend on the order even when they fail.", "quantifier": "every environment, every two orders (each a rearrangement of every set, depending on the state), every fork, block, state and chain of blocks", "why_tests_cant": "An order that matters shows up as a consensus split between nodes with different random seeds; there are factorially many orders for each set, and a test process sees one of them.", "anchors": ["ethereum-consensus/src/phase0/helpers.rs: get_attesting_indices, get_total_balance, get_total_active_balance", "ethereum-consensus/src/phase0/block_processing.rs: process_attester_slashing", "ethereum-consensus/src/phase0/epoch_processing.rs: get_unslashed_attesting_indices, get_inclusion_delay_deltas", "ethereum-consensus/src/altair/helpers.rs: get_unslashed_participating_indices", "ethereum-consensus/src/altair/block_processing.rs: process_attestation", "ethereum-consensus/src/altair/fork.rs: translate_participation", "ethereum-consensus/src/electra/helpers.rs: get_attesting_indices", "ethereum-consensus/src/state_transition/executor.rs: Executor::apply_block"]}
{"id": "C92", "title": "The generated module of each fork exports each name once, with its newest definition", "statement": "The functions and types of a fork are used through its `spec` module, which `spec-gen` writes from the files of that fork and of the earlier ones. For every sequence of forks whose files follow the conventions of the repository the generator succeeds, and the module of each fork exports exactly the names that fork or an earlier one defines, without those it is told to leave out, each once. A name is bound to the newest definition: imported from the file and fork that has it, where it exists, or, for a function whose types mention a container redefined since, written out again with the text of that definition. A function imported from an earlier fork mentions no container redefined since, and what the module exports under the name of any function it calls is what that earlier fork exports. The files of the repository follow the conventions, and the modules committed in it are those the generator writes for them.", "quantifier": "every sequence of forks of any length, every set of files, items, mentions and calls following the conventions (names distinct in a fork, of one kind throughout, constants not redefined, type parameters bounded by traits; a function whose containers changed once has one changed by each later fork; a fork that redefines a function changes a container of each older function that calls it)", "why_tests_cant": "A wrong import compiles and runs: a fork would silently execute the rules of an earlier fork in one place. Which definitions are affected depends on the whole history of forks and on names spread over sixty files.", "anchors": ["spec-gen/src/generator.rs: Spec::parse, Spec::on_top_of, Spec::assemble_items, parse_fork_diff_with_symbol_index, run", "spec-gen/src/visitors.rs: TypeNameVisitor, collect_type_params", "ethereum-consensus/src/*/spec/mod.rs"]}
{"id": "C93", "title": "A place in the activation queue is honoured in time and in order", "statement": "The end of an epoch puts each new validator with enough stake on the activation queue. Once its place there is final, a validator is activated in bounded time, whatever blocks and slots follow and whoever joins behind it: with n waiting before it when the place is final, and k the lowest number that the configuration lets be activated per epoch, its activation epoch is at most the current epoch plus n / k plus the usual delay of 1 + MAX_SEED_LOOKAHEAD epochs; from electra on, where there is no limit, n / k counts as zero. Nobody overtakes: a validator that is behind another on the queue, or not yet registered, does not become active before it. Every client that follows a chain from genesis is in the situation described.", "quantifier": "every configuration that meets the sanity bounds, every fork, every state of a chain with its checkpoints in order, every validator that waits, every number and sequence of slots and accepted blocks after it within the fork", "why_tests_cant": "It is a statement about all continuations of a chain of any length: finality may stall, blocks may exit, slash, deposit and consolidate anybody, and the queue may be arbitrarily long.", "anchors": ["ethereum-consensus/src/phase0/epoch_processing.rs: process_registry_updates", "ethereum-consensus/src/deneb/epoch_processing.rs: process_registry_updates", "ethereum-consensus/src/electra/epoch_processing.rs: process_registry_updates", "ethereum-consensus/src/phase0/slot_processing.rs: process_slots", "ethereum-consensus/src/phase0/block_processing.rs: process_block"]}
{"id": "C94", "title": "Leaving is honoured: the exit in bounded time, and the stake paid to the named address", "statement": "Before electra, in every state a client can reach, a validator that is leaving has an exit epoch no later than the next free epoch (current epoch + 1 + MAX_SEED_LOOKAHEAD) plus n / k, where n is the number of validators that leave between the next free epoch and its own exit, and k is MIN_PER_EPOCH_CHURN_LIMIT; an accepted voluntary exit is given such an epoch and a withdrawable epoch the configured delay later. In capella and deneb a leaving validator with an execution address that is not slashed meanwhile is then paid out: from the withdrawable epoch on, among any run of at least as many accepted blocks as the registry has entries, one has found its balance zero or has paid the whole balance it had to the address named in the credentials it had when it left. A validator that can withdraw already can no longer be slashed, delayed or redirected. In electra, where exits are rationed by balance, an exit gets an epoch no later than where the queue stood, or the next free epoch, plus the epochs that its balance and all that was served before it take at the smallest churn of the configuration.", "quantifier": "every configuration that meets the sanity bounds, every reachable state before electra (any calls, failing or not, any fork upgrades), every leaving validator, every number and sequence of slots and accepted blocks in capella or deneb; in electra every run in which the queue serves any exits", "why_tests_cant": "It ranges over every history that fills the exit queue and over every continuation of a chain: exits, ejections and slashings interleave arbitrarily, the queue and the registry have no bound, and the sweep may meet any set of creditors.", "anchors": ["ethereum-consensus/src/phase0/helpers.rs: initiate_validator_exit, slash_validator", "ethereum-consensus/src/phase0/block_processing.rs: process_voluntary_exit, process_attester_slashing, process_proposer_slashing", "ethereum-consensus/src/capella/block_processing.rs: process_withdrawals, get_expected_withdrawals, process_bls_to_execution_change", "ethereum-consensus/src/phase0/slot_processing.rs: process_slots", "ethereum-consensus/src/electra/helpers.rs: compute_exit_epoch_and_update_churn, initiate_validator_exit"]}
{"id": "C95", "title": "Two thirds of the stake can justify and finalise, whatever the rest does", "statement": "Once a block carries a validator's attestation with the right target for an epoch, the vote counts in every later state of that epoch and the next, whatever valid blocks, empty slots and fork upgrades come in between, unless the validator is slashed. If unslashed validators with two thirds of the active balance have such votes in blocks by the end of an epoch (after the first two), the state at the start of the next epoch has that epoch's block on this chain as its justified checkpoint; if only by the end of the epoch after, it or its successor is justified then. If this happens in time in two epochs in a row, the first is finalised at the end of the second. If the votes for three epochs in a row come each by the end of the epoch after, the first or a later one is finalised at the end of the fourth epoch.", "quantifier": "every configuration that meets the sanity bounds, every reachable state, every fork, every continuation by slots, accepted blocks and upgrades at epoch boundaries, every registry and every set of voters", "why_tests_cant": "It is a liveness property: it ranges over all continuations of a chain, over who proposes, what else the blocks contain and in what order votes come in, and across fork boundaries where recorded attestations turn into flags.", "anchors": ["ethereum-consensus/src/phase0/block_processing.rs: process_attestation", "ethereum-consensus/src/altair/block_processing.rs: process_attestation", "ethereum-consensus/src/electra/block_processing.rs: process_attestation", "ethereum-consensus/src/phase0/epoch_processing.rs: process_justification_and_finalization, weigh_justification_and_finalization, process_participation_record_updates", "ethereum-consensus/src/altair/epoch_processing.rs: process_justification_and_finalization, process_participation_flag_updates", "ethereum-consensus/src/altair/fork.rs: upgrade_to_altair, translate_participation", "ethereum-consensus/src/phase0/slot_processing.rs: process_slots"]}
{"id": "C96", "title": "The chain is never stuck", "statement": "Processing the end of an epoch succeeds in every state with sound records, and a state can be advanced to any slot of its epoch and the next; the only thing that can fail is the draw of the next sync committee (it may not end, or meet a key that is not on the curve), and only in a slot in which a period of sync committees begins. A block without operations is accepted exactly when it fits the state: its header (slot, proposer, parent, proposer not slashed), the reveal, the payload, the withdrawals and the sync aggregate are right and no deposit is due; nothing else is held against it. So in every state in which the elected proposer is not slashed, has their key, no deposit is due and the engine can build on the head, there is a signed block that passes with all checks, and a chain can be continued in every slot. What phase0 requires of its recorded votes (a bit per committee member, kept with their epoch) holds after every accepted block and every slot.", "quantifier": "every configuration that meets the sanity bounds, every well-formed state within the numeric bounds, every fork and every slot of this and the next epoch; every block without operations", "why_tests_cant": "It says that no error can occur, in any of the checks of epoch and slot processing, for any registry, balances, participation, checkpoints and time; tests only show that some states advance.", "anchors": ["ethereum-consensus/src/phase0/epoch_processing.rs: process_epoch", "ethereum-consensus/src/altair/epoch_processing.rs: process_epoch, process_sync_committee_updates", "ethereum-consensus/src/phase0/slot_processing.rs: process_slots", "ethereum-consensus/src/phase0/block_processing.rs: process_block", "ethereum-consensus/src/altair/block_processing.rs: process_sync_aggregate", "ethereum-consensus/src/capella/block_processing.rs: process_withdrawals, process_execution_payload", "ethereum-consensus/src/phase0/helpers.rs: get_block_root_at_slot, get_attesting_indices", "ethereum-consensus/src/phase0/state_transition.rs: state_transition", "ethereum-consensus/src/electra/block_processing.rs: process_block, process_withdrawals, get_expected_withdrawals"]}
{"id": "C97", "title": "Only the guilty are slashed", "statement": "Whatever blocks a client processes, with success or failure, over whatever slots and forks, a validator becomes slashed only if its key has signed two votes with the same target epoch and different data, two votes of which one surrounds the other, or two different headers of one proposer for one slot, under a domain of this chain. In every state a client can have from genesis on, every slashed validator is such an offender; who has signed nothing of the kind is never slashed, neither by blocks nor by time nor by a fork. Conversely, evidence of such an offence that the state can verify is accepted in every sound state and the offenders that can be slashed are slashed.", "quantifier": "every genesis, every sequence of calls that process slots and blocks, successful or not, and of fork upgrades, every validator and key; every fork", "why_tests_cant": "That no sequence of blocks whatever slashes an innocent key is a claim about all histories and all blocks, including those rejected half-way.", "anchors": ["ethereum-consensus/src/phase0/block_processing.rs: process_proposer_slashing, process_attester_slashing", "ethereum-consensus/src/phase0/helpers.rs: slash_validator, is_slashable_attestation_data, is_valid_indexed_attestation", "ethereum-consensus/src/altair/helpers.rs: slash_validator", "ethereum-consensus/src/bellatrix/helpers.rs: slash_validator", "ethereum-consensus/src/electra/helpers.rs: slash_validator", "ethereum-consensus/src/phase0/state_transition.rs: state_transition", "ethereum-consensus/src/phase0/slot_processing.rs: process_slots"]}
{"id": "C98", "title": "Whoever does their duty loses nothing", "statement": "A validator that does its duty for every epoch in which it is active (in phase0: a vote with the right head, included in the next slot if finality is overdue; from altair on: a timely vote with the right source and target), that from altair on signs the sync aggregate of every block while it sits on the sync committee, and signs nothing that can be slashed, never has less than before: over any blocks, slots, epochs (with or without finality, in a leak or not) and fork upgrades, its balance plus its deposits in the queue plus what withdrawals have paid out to it is at least what belonged to it at the start. From altair on it is enough for the vote that one block of the chain carries its attestation with the right target within the square root of an epoch's slots.", "quantifier": "every configuration that meets the sanity bounds, every reachable state, phase0 to electra, every continuation by slots, accepted blocks and upgrades on which the validator does its duty, whatever all other validators do (in electra: while no consolidation away from it is pending)", "why_tests_cant": "It is a promise over all histories: no block, penalty, leak, slashing of others, fork or queue may take from this validator, whatever else happens; tests only try some.", "anchors": ["ethereum-consensus/src/altair/epoch_processing.rs: process_rewards_and_penalties, process_inactivity_updates", "ethereum-consensus/src/altair/helpers.rs: get_flag_index_deltas, get_inactivity_penalty_deltas, get_attestation_participation_flag_indices", "ethereum-consensus/src/altair/block_processing.rs: process_attestation, process_sync_aggregate", "ethereum-consensus/src/capella/block_processing.rs: process_withdrawals", "ethereum-consensus/src/electra/block_processing.rs: process_withdrawals, process_consolidation_request", "ethereum-consensus/src/electra/epoch_processing.rs: process_pending_balance_deposits, process_pending_consolidations", "ethereum-consensus/src/electra/fork.rs: upgrade_to_electra", "ethereum-consensus/src/phase0/helpers.rs: decrease_balance", "ethereum-consensus/src/phase0/epoch_processing.rs: process_rewards_and_penalties"]}
{"id": "C99", "title": "The set of active validators changes slowly", "statement": "In phase0 to deneb, no more validators leave in an epoch than the minimum churn limit or the registry's size divided by the churn limit quotient, whatever calls have been made and whether they failed; on a chain that is followed slot by slot no more join in an epoch, genesis apart. So the active sets of any two epochs differ, in either direction, by at most that number for each epoch between them.", "quantifier": "every configuration that meets the sanity bounds, every reachable state before electra (leaving), every state of a client that follows a chain from genesis or from any orderly state (joining, turnover), every epoch and every pair of epochs", "why_tests_cant": "Light clients and weak subjectivity rest on this bound for every history; exits come from voluntary exits, ejections and slashings in any order and number, and the queue is found again from the registry each time. Tests only fill it a little.", "anchors": ["ethereum-consensus/src/phase0/helpers.rs: get_validator_churn_limit, compute_activation_exit_epoch", "ethereum-consensus/src/phase0/block_processing.rs: process_voluntary_exit", "ethereum-consensus/src/phase0/epoch_processing.rs: process_registry_updates", "ethereum-consensus/src/phase0/helpers.rs: initiate_validator_exit, slash_validator", "ethereum-consensus/src/deneb/epoch_processing.rs: process_registry_updates", "ethereum-consensus/src/deneb/helpers.rs: get_validator_activation_churn_limit"]}
{"id": "C100", "title": "The stake answers for the vote", "statement": "For MIN_VALIDATOR_WITHDRAWABILITY_DELAY epochs after every epoch in which it was active, whatever has been called since, a validator is slashed or can be: valid evidence against it is accepted and slashes it, though it may have left in the meantime. As long, in capella and deneb, a block that pays it anything pays no more than what it has above the maximum effective balance. No stake is withdrawable before that delay after the exit is over.", "quantifier": "every configuration that meets the sanity bounds, every reachable state (or any state whose stakes are locked), every sequence of later calls, failing ones included, and fork upgrades, every validator, epoch and evidence", "why_tests_cant": "Accountability is about a window of 256 epochs during which anything may happen: exits, ejections, slashings, consolidations, upgrades and calls that fail half way, each of which writes the epochs the window depends on. A test follows one such path.", "anchors": ["ethereum-consensus/src/phase0/helpers.rs: initiate_validator_exit, slash_validator, is_slashable_validator", "ethereum-consensus/src/electra/helpers.rs: initiate_validator_exit", "ethereum-consensus/src/electra/block_processing.rs: process_consolidation", "ethereum-consensus/src/phase0/block_processing.rs: process_attester_slashing", "ethereum-consensus/src/capella/block_processing.rs: get_expected_withdrawals, process_withdrawals"]}
{"id": "C101", "title": "The keystores a user is given hold the keys of their mnemonic", "statement": "What `ec validator generate-lighthouse-keystores` prints for a mnemonic and a range of indices is a list with one entry per index, in order; each entry has a keystore and a password such that whoever opens the keystore with that password as EIP-2335 says gets exactly the signing key that EIP-2333 and EIP-2334 derive for that index, and the keystore names that key's path and public key.", "quantifier": "every seed, every range of indices, every outcome of the random draws (passphrase, salt, initialisation vector, uuid), every scrypt, AES, hash and printing function", "why_tests_cant": "Salts, vectors and passphrases are random and differ in every run, and a keystore that cannot be opened, or opens to another key, is found out only when the key is needed; a test sees a few draws.", "anchors": ["ethereum-consensus/src/bin/ec/validator/mod.rs: Command::execute", "ethereum-consensus/src/bin/ec/validator/keystores.rs: generate, Keystore::new_with_generated_passphrase, Keystore::new, as_hex, as_json_str", "ethereum-consensus/src/bin/ec/validator/keys.rs: generate"]}
{"id": "C102", "title": "A deposit leads to an active validator", "statement": "Before electra, when a block is accepted that contains a signed deposit of at least MAX_EFFECTIVE_BALANCE for a key that no validator has, and no smaller one for the same key, there is from then on a validator with that key. As soon as the chain leaves the epoch of the block, that validator is on the activation queue, with the next epoch as its eligibility epoch. In every later state in which that epoch is final, its activation epoch is at most the current epoch plus the number of epochs that those before it on the queue take at the slowest service, plus the usual delay of one epoch and MAX_SEED_LOOKAHEAD, whatever blocks and slots follow. In electra, every deposit of an accepted block, and every deposit receipt of its payload, for a key that no validator had leaves a validator with that key, without stake and off the activation queue, and its amount in the queue of deposits. A validator off the activation queue whose effective balance is at least MIN_ACTIVATION_BALANCE is on the queue when the epoch ends, and once its eligibility epoch is final it is activated with the next end of an epoch, without waiting for others; and deposits credited in their turn (C103) at the end of an epoch to a validator well below MIN_ACTIVATION_BALANCE that reach it together with what the validator has give it that effective balance at once, in however many parts the stake came.", "quantifier": "every configuration that meets the sanity bounds, every fork, every orderly state (every state of a client that follows the chain is one), every accepted block and deposit in it (before electra) or every credit of deposits (electra), every later sequence of slots and blocks", "why_tests_cant": "Between a deposit and its activation there are many epochs with other deposits, exits, slashings and ejections, each of which touches the registry or the queue. A test follows one such history; the depositor relies on all of them.", "anchors": ["ethereum-consensus/src/phase0/block_processing.rs: process_deposit, apply_deposit, add_validator_to_registry, get_validator_from_deposit", "ethereum-consensus/src/phase0/epoch_processing.rs: process_registry_updates", "ethereum-consensus/src/deneb/epoch_processing.rs: process_registry_updates", "ethereum-consensus/src/phase0/helpers.rs: is_eligible_for_activation_queue, is_eligible_for_activation, compute_activation_exit_epoch", "ethereum-consensus/src/electra/epoch_processing.rs: process_pending_balance_deposits, process_pending_consolidations, process_effective_balance_updates, process_registry_updates"]}
{"id": "C103", "title": "In electra a deposit is credited in its turn and in time", "statement": "In electra the queue of deposits is served strictly in order: whatever blocks and slots follow, the deposits that were queued and have not left stand at the front of the queue in their order, before all that came later. A deposit has left the queue after at most as many ends of epochs as it takes to credit it and all before it at the smallest churn that the configuration allows. Deposits leave the queue only at the ends of epochs, and those that leave are credited to their accounts; blocks only add to the queue, at its end.", "quantifier": "every configuration that meets the sanity bounds, every electra state and queue, every later sequence of slots and blocks, every deposit queued", "why_tests_cant": "The time depends on how the churn that one epoch leaves over is carried to the next, over any number of epochs, and on deposits, switches to compounding credentials and consolidations that append to the queue meanwhile. A test covers one queue and a few epochs.", "anchors": ["ethereum-consensus/src/electra/epoch_processing.rs: process_pending_balance_deposits, process_pending_consolidations, process_epoch", "ethereum-consensus/src/electra/block_processing.rs: apply_deposit, process_deposit_receipt, add_validator_to_registry", "ethereum-consensus/src/electra/helpers.rs: get_activation_exit_churn_limit, switch_to_compounding_validator, queue_excess_active_balance"]}
{"id": "C104", "title": "The generator of the enums over forks writes the right functions", "statement": "For any type whose structs follow the conventions (the forks with the struct are consecutive, a field stays in later forks unless its removal is declared, a removal that is declared has happened), the generator writes an enum around values, and if asked for two around references, with one variant for each fork's struct, in order. Each function it writes asks for a variant, for the version, or leads to a field: in every variant to the field of its name, or the enum of references to it if the field is itself an enum over forks, and to None where the struct has no such field, in which case its result is optional. Every variant and field of every struct has such a function, by exclusive reference too wherever the enum allows it, and no function is written twice unless a field has the name of a fork or of version. Signatures name the type of the newest struct with the field. The structs of the repository follow the conventions, and what the generator writes for them is what has been committed.", "quantifier": "every target type, every sequence of forks, every list of structs that follow the conventions; the committed files of the nine types", "why_tests_cant": "The tests of the generator only compare the order of two forks. The structs that a later fork brings may add, keep or remove any fields, and the generator does not check its conventions.", "anchors": ["spec-gen/src/type_generator.rs: load_type_defns, derive_merge_type, derive_merge_generics, derive_method_set, derive_match_arms, derive_fields_impl, derive_ref_impl, as_syn, run", "ethereum-consensus/src/types/*.rs"]}
{"id": "C105", "title": "Nothing is done twice", "statement": "What a client has accepted it refuses from then on, whatever functions are called in between, successfully or not, and through all fork upgrades. A block that is accepted after another is of a later slot, so no block is accepted twice. Each position in the list of the deposit contract is processed at most once. A validator leaves by at most one voluntary exit and changes its credentials at most once, so two accepted blocks, or two places in one block, never hold exits, changes or proposer slashings of the same validator. A validator that is slashed is never slashed again, neither for headers nor for votes, and an attester slashing all of whose common attesters are slashed is refused.", "quantifier": "every two blocks or operations, every sequence of calls and upgrades between them", "why_tests_cant": "the marks that an operation leaves must survive every later call, failed or not, and every fork; a test replays an operation only in the states it has built", "anchors": ["ethereum-consensus/src/phase0/block_processing.rs", "ethereum-consensus/src/capella/block_processing.rs", "ethereum-consensus/src/electra/block_processing.rs", "ethereum-consensus/src/electra/fork.rs", "ethereum-consensus/src/phase0/helpers.rs"]}
{"id": "C106", "title": "The lists of a state stay within the capacity of their types", "statement": "In every state that a client can reach from genesis, through valid and invalid blocks, skipped slots and fork upgrades, the lists that blocks append to hold no more than their SSZ types have room for, so the state can be hashed and encoded: as long as no block holds more attestations than its own type allows, the pending attestations of phase0 for the current and for the previous epoch are at most MAX_ATTESTATIONS * SLOTS_PER_EPOCH each; the queues of partial withdrawals and of consolidations of electra never exceed their limits (the votes for eth1 data are C24, the historical roots C63).", "quantifier": "every chain from genesis, every sequence of well typed blocks, valid or not", "why_tests_cant": "the bound is on what accumulates over an epoch of the fullest blocks; the spec tests have no such epochs", "anchors": ["ethereum-consensus/src/phase0/beacon_state.rs BeaconState", "ethereum-consensus/src/phase0/block_processing.rs process_attestation", "ethereum-consensus/src/phase0/epoch_processing.rs process_participation_record_updates", "ethereum-consensus/src/electra/block_processing.rs process_execution_layer_withdrawal_request, process_consolidation"]}
{"id": "C107", "title": "Blinded blocks and headers stand for their blocks", "statement": "The header made from an execution payload has the same hash tree root as the payload (bellatrix to electra). So a blinded block, which is a block with that header in the place of its payload, has the same root and under every domain the same signing root as the block: a proposer who signs the blinded block has signed the block, and whoever reveals a payload for it can reveal no other. Every block has such a blinded block; a blinded block with the root of a block is this one, and two blocks with the same blinded block are equal, unless two different pairs of nodes hash to one on the way. Likewise the header of a block, with the root of the body in the place of the body, has the root and the signing roots of the block in every fork, and belongs to no other block.", "quantifier": "every block, payload, blinded block and header of every preset, every domain, every hash function to 32 bytes", "why_tests_cant": "the types of payloads and headers are declared field by field in separate files and must stay aligned, for every content; a field that tests leave at its default can be swapped or dropped unnoticed", "anchors": ["ethereum-consensus/src/bellatrix/execution_payload.rs ExecutionPayloadHeader::try_from", "ethereum-consensus/src/capella/execution_payload.rs ExecutionPayloadHeader::try_from", "ethereum-consensus/src/deneb/execution_payload.rs ExecutionPayloadHeader::try_from", "ethereum-consensus/src/electra/execution_payload.rs ExecutionPayloadHeader::try_from", "ethereum-consensus/src/bellatrix/blinded_beacon_block.rs BlindedBeaconBlock", "ethereum-consensus/src/capella/blinded_beacon_block.rs BlindedBeaconBlock", "ethereum-consensus/src/deneb/blinded_beacon_block.rs BlindedBeaconBlock", "ethereum-consensus/src/phase0/beacon_block.rs BeaconBlockHeader"]}
