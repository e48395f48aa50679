# Formal model of ralexstokes/ethereum-consensus in Lean 4

## 1. Method

The Rust source in /repo is modelled function by function in Lean 4 under
`lean/Verif/Model`. Names follow the Rust names. Each definition cites the file
and lines it models. Properties live in `lean/Verif/Props`, one file per topic,
next to examples that show their hypotheses are met by concrete cases. Helper
lemmas live in `lean/Verif/Proofs`. Independent specifications (the words in
which a theorem is stated, when plain arithmetic and lists are not enough) live
in `lean/Verif/Spec`.

### Modelling conventions

* `u64`/`usize` values are natural numbers; every Rust `+ - * / %` that can
  overflow, underflow or divide by zero is a *checked* operation that returns
  `Err.panic` (Rust with overflow checks: the debug and test profiles). Release
  builds wrap instead of panicking on overflow. A run of the model that does not
  end in `Err.panic .overflow` never overflowed, so it is also what a release
  build computes. `usize` is taken to be 64 bits.
* Rust `Result::Err` is `Err.<constructor>`; a Rust panic (index out of range,
  `unwrap`/`expect`, division by zero, overflow) is `Err.panic`. So "returns an
  error" and "panics" are different observable outcomes in the model.
* `&mut state` functions are computations in `M = EStateM Err State`. On error
  the state reached so far is kept, as in Rust: nothing is rolled back.
* Functions that only read are `State → … → Except Err α`.
* Loops are structural recursion or `List.forM`/`foldlM`. The one genuinely
  unbounded kind of loop (rejection sampling of proposers and sync committees)
  takes fuel from the environment; running out is the separate error
  `Err.diverged`, and theorems quantify over every amount of fuel.
* One `State` record holds the union of the fields of all forks. In Rust each
  fork has its own struct and the shared functions are copied textually per fork
  by `spec-gen`; in the model they are one definition. Fields that a fork does
  not have are simply not used by that fork's functions. That the copies agree
  was checked mechanically by a script that compared the body of every function
  in `*/spec/mod.rs` with the definition of the fork itself or, if it has none,
  of the nearest preceding fork that has one: they are the same up to comments,
  white space, commas and braces. Functions that a fork imports from an earlier one
  call what that one calls; a second script compared where every function and
  constant in the body of an imported function comes from in the two forks: the same.
  `Fork` arguments select between definitions where a fork has its own.
* Const generics (`SLOTS_PER_HISTORICAL_ROOT`, …) and the `Context` fields with
  the same meaning are identified: both are fields of `Env`. The presets set
  them to the same constants.
* `HashSet`s are duplicate-free lists. The order in which a set is visited is a
  parameter of the model (`Primitives.visit`: for every state and set, some
  rearrangement of the set), so every theorem holds for every order. C91 says that
  the outcome does not depend on it. One thing is lost: two sets with the same
  elements, visited in the same state, are visited in the same order.

### Trusted base

* Lean 4.33.0's kernel. The theorems depend only on the standard axioms
  `propext`, `Classical.choice`, `Quot.sound` (or fewer). No axioms are added,
  there is no `sorry`, `native_decide` or `bv_decide`.
* The correspondence between the Rust text and the Lean definitions, which is
  by reading: the Rust was not compiled or run.
* Primitives that are abstract parameters of the model (fields of `Env`), for
  which nothing is assumed: SHA-256 (`hash`), SSZ `hash_tree_root` of each
  container, BLS verification/aggregation, `is_valid_merkle_branch`, KZG, the
  execution engine. Theorems hold for every choice of these functions.

### Modelled

| Model file | Rust source (under `ethereum-consensus/src`) |
|---|---|
| `Prelude`, `Monad`, `Loops` | checked arithmetic, `Result`/panic, `for` loops |
| `Types`, `Env`, `Presets`, `Context` | containers of all forks, `state_transition/context.rs`, `*/presets`, `configs` |
| `Phase0/Shuffle`, `Phase0/Helpers` | `phase0/helpers.rs`, `crypto`-facing helpers with abstract BLS |
| `Altair/Helpers`, `Electra/Helpers` | `altair/helpers.rs`, `bellatrix/helpers.rs`, `electra/helpers.rs` |
| `Slash`, `Operations`, `Payload`, `Block` | `*/block_processing.rs`, `*/slash_validator` of every fork |
| `Rewards`, `Epoch` | `*/epoch_processing.rs` of every fork |
| `Transition`, `Upgrade`, `Genesis`, `Executor` | `*/slot_processing.rs`, `*/state_transition.rs`, `*/fork.rs`, `*/genesis.rs`, `state_transition/executor.rs` |
| `Network`, `Clock`, `Text` | `networks.rs`, `clock.rs`, `serde.rs`, `ssz/byte_*.rs`, identifiers of `beacon-api-client/src/types.rs` |
| `Json`, `JsonTypes`, `JsonApi`, `JsonForks` | `serde.rs`, the `serde` attributes of all containers and of `beacon-api-client/src/types.rs`, `Deserialize` of the enums in `types/` |
| `Ssz` | `deneb/blob_sidecar.rs`, `signing.rs`, the constants of `*/light_client.rs`; hash tree roots and branches of `ssz_rs` for the shapes of `JsonTypes` |
| `SszCodec` | `ssz/byte_list.rs`, `ssz/byte_vector.rs`; `serialize` and `deserialize` of `ssz_rs` for the shapes of `JsonTypes`, without which error is returned |
| `Bls` | `crypto/bls.rs`, `signing.rs`, over an abstract curve |
| `Blobs`, `Keys` | `bin/ec/blobs/*`, `bin/ec/validator/*` |
| `Kzg` | `crypto/kzg.rs`, `bin/ec/blobs/bundler.rs`; `c-kzg` over abstract groups with a pairing |
| `KeyFiles` | `bin/ec/validator/mod.rs`, `keystores.rs`: the keystores that are printed |
| `PeerId` | `networking.rs` |
| `Api` | `beacon-api-client/src/api_client.rs`: the request of every method |
| `ApiResponse` | `api_client.rs`, `api_error.rs`, `types.rs` of `beacon-api-client`: what every method makes of an answer |
| `Accessors`, `AccessorTables` | `types/*.rs`: the functions of the enums over forks and of the enums of references |
| `SpecGen` | `spec-gen/src/generator.rs`: where each name of a generated module comes from; generic arguments and printing are not modelled |
| `Config`, `ConfigTables`, `ConfigLoad` | `configs/*.rs`, `*/presets/*.rs`, `state_transition/context.rs`, `networks.rs`: what a context is made of |

### Not modelled

* The code of `ssz_rs`, an external crate: merkleisation and encodings are modelled in `Ssz`
  and `SszCodec` from the SSZ specification. The SSZ decoding of the types for all forks
  is not modelled. `blst` and `c-kzg` are external too: they are modelled in `Bls` and `Kzg` from what
  they are documented to compute, over abstract groups; how they compute it (multi-scalar
  multiplication, curve arithmetic, the trusted setup file) is not. HTTP transport below the requests of `beacon-api-client`, async runtimes, file
  and terminal I/O of the command line tools, the spec-test runner. Of the generator of the types for
  all forks (`spec-gen/src/type_generator.rs`) the imports, the text of signatures, the derived traits
  and the layout of the files are not modelled.
  Of the blinded block types the JSON form, the encoding, the roots and the accessors are modelled; the
  code has no functions that make or open them.
* The text of JSON: `serde_json` and the derived code of `serde` are modelled from
  their documentation, from the tree of values on.
* SSZ list capacity limits (`VALIDATOR_REGISTRY_LIMIT` etc.), except where a
  theorem names them.
* Light client types (`*/light_client.rs`: no functions), except their indices.
* Memory, time, performance.

### Wrong programs

`seeded/LOG.jsonl` has one line per wrong edit of the model. In it, `failed` names the declarations
that Lean reported errors in. `claims_lost` is coarser: it lists every theorem of the claim in a module
that no longer builds, because that module or one it imports has an error. It does not say that each of
them was broken on its own. A line with nothing in `failed` and nothing in `tightened` is an edit that
survived because it does not change what the program computes.

## 2. Plan per property

| Property | What is modelled | How it is proved |
|---|---|---|
| C01 | `compute_shuffled_index` with an arbitrary hash | each round is an involution on `[0,n)`; induction on rounds |
| C02 | `compute_shuffled_indices` with its cached hash block and byte | loop invariant for the cache, list swap = round involution, induction on rounds |
| C03, C04 | `compute_committee`, `get_beacon_committee`, `get_committee_count_per_slot` | slices of a permutation telescope; division lemmas |
| C05 | `compute_proposer_index` with fuel | induction on fuel, C01/C02 |
| C06 | `is_slashable_attestation_data` | case analysis against an independent definition |
| C07 | `is_valid_indexed_attestation` | loop lemma: accepted iff strictly sorted |
| C08 | `increase_balance`, `decrease_balance` | direct |
| C09 | `initiate_validator_exit` | invariant over any sequence of exits |
| C10 | `slash_validator` of every fork | exact post-state |
| C11, C12 | every modelled operation, block, epoch, slot function | one preorder preserved by all of them, compositional |
| C13, C14 | slashing operations | inversion of the monadic code |
| C15 | `process_block_header` | exact acceptance condition |
| C16, C17 | `process_slots`, `process_slot` | induction on the number of slots, history specification |
| C18 | `process_randao`, reset | ring-buffer lemmas |
| C19 | justification/finalization | invariant |
| C20–C24 | epoch sub-transitions, eth1 votes | per-element specifications |
| C25, C26 | deposits | exact post-state |
| C27, C28 | exits, attestations | exact acceptance condition |
| C29–C33 | Altair flags, attestations, inactivity, sync committees | bit lemmas, permutation-invariant folds; that flags are kept over slots and blocks (C29): a relation over all parts of a block (`Proofs/KeptFlags.lean`), and C62 |
| C34–C36 | upgrades, executor, schedule | exact post-state, case analysis |
| C37 | domains, and the domain of messages to builders | finite table plus list lemmas |
| C38, C39 | clock arithmetic, stream as a state machine | arithmetic, induction over polls |
| C40, C41 | hex, decimal, identifiers | round-trip laws by induction |
| C42, C43 | blob framing and packing | round-trip laws; counterexample witnesses |
| C44–C47 | Capella/Deneb operations | specifications of the sweep, induction |
| C48, C49 | top-level transition, genesis | inversion |
| C50–C54 | Electra churn, queues, withdrawals | invariants; counterexample witnesses where the code departs from the claim |
| C55 | panics of operations and blocks | weakest preconditions under a well-formedness predicate |
| C66 | panics of epoch and slot processing and of the transition | the same, with invariants for the reward loops |
| C67 | `process_slot`, `process_block_header`, `get_block_root_at_slot` along whole chains | invariant on the list of headers; induction on the slot of the common block |
| C68 | every mutating function, against the active sets, seeds and committees of later epochs | one preorder preserved by all of them (activation and exit epochs already set are fixed, new ones lie beyond the lookahead), mixes by C18 |
| C69 | withdrawal requests, deposit receipts and consolidations of electra | exact effects by inversion of the monadic code |
| C70 | attestations, participation records, justification and finalization, along whole chains | invariant: every recorded vote is signed and every checkpoint is linked to the genesis (uses C67 for block roots and C68 for committees); Casper's argument on two chains |
| C71–C74 | the JSON form of every container, enum over forks and API type | a universe of shapes with one reader and writer; round trip and refusal by mutual induction over shapes; facts about the 129 shapes by computation, for every preset |
| C75 | signing, verification and aggregation, on top of a model of `blst` over an abstract pairing | bilinearity; exact acceptance conditions |
| C76, C77 | hash tree roots of every container, branches and generalized indices over a parametric hash | mutual induction over shapes, with the pairs of nodes hashed made explicit; induction on the depth of the tree and on the path |
| C78 | panics of Electra's block, epoch and slot processing | the calculus of C55 and C66 over an invariant of the queues: indices in range, and room in the epochs of the exit queue for every balance that can still leave |
| C79 | `PeerId`, base58, variable-length integers, multihashes | texts are those whose number in base 58 is the number of the bytes, with as many leading ones as zeros; induction on the bytes of an integer |
| C80 | the request of each of the 69 methods of the client | a server that finds operations by the table of the standard and reads the parameters back; no two operations share a path; the text of a query is read back as its parameters |
| C81 | the result of each of the 69 methods for an answer, given by its status and JSON body | the answers of the standard by call, over schemas written out in the specification; C71 and C73 for the types; inversion of the readers for what a result rests on |
| C82 | the arms of all 672 accessors of the 23 enums in `types/`, as tables, and what an arm does | the tables are checked by the kernel against the names of the fields, which do not depend on the presets; lemmas on fields of structs carry this over to every value |
| C83 | `serialize` and `deserialize` for the shapes of `JsonTypes`, with offsets, after the SSZ specification | induction over types and fields: taking apart what was composed gives the parts back, the first offset tells their number, and sizes agree; conversely, composing what was taken apart gives the bytes back |
| C84 | `Config`, `Context::from`, `try_from_file`, `TryFrom<Network>`, with the presets and configurations as tables; `serde_yaml` is a parameter | the tables are checked by the kernel against the names of the parameters; lemmas on tables carry this over to every file |
| C85 | `crypto/kzg.rs`, `bundler.rs` and the functions of `c-kzg` that they call; the setup is any with the structure of a trusted setup (`SoundSetup`), of which the groups, pairing, encodings and hashes are parameters | Lagrange interpolation over the scalar field, whose modulus is proved prime by a Lucas certificate; soundness of batches by counting roots of a polynomial with coefficients in a module |
| C86 | `process_block`, `process_operations` of all forks | the block as a list of parts (`Runs`), each taken from the existing models; invariants of the state in the midst of a block (`Inside`): the proposer, committees, domains and roots the operations see are those of the state before it; then each operation's own claim, carried to the end by C11 |
| C87 | `process_epoch` of all forks | the list of steps per fork (`epochParts`); then, by following which fields each step writes (`Proofs/EpochSteps`) and combining the theorems about the steps, what the whole does from the state before to the state after (`Spec/Ends`), where the only states in between that are mentioned are those in which rewards are booked and queues cleared; that reachable states meet the assumptions is an invariant of all calls |
| C88 | `process_block` of all forks, and every function below it that moves money | a book of accounts and queued deposits (`Spec/Ledger.lean`) and the entries of a block as a function of the state before and the block; each part of the block makes its entries in the book of the state it meets, and what it computes them from is the same as before the block (`Inside`); the flags already earned are followed by an invariant; totals by monotonicity of each entry |
| C89 | everything that writes the registry or the sync committees, genesis, upgrades | `HasKey`, `keysOf`, `Onwards` (calls and upgrades from any state) and `enrol` in `Spec/Identity.lean`; one relation (the keys are a prefix of the later ones, and stay distinct) is followed through every function that writes the registry, success or failure, from there by induction over `Reachable` and `Onwards`; membership of the committees is a second such relation; the keys a block adds are read off the ledger of C88 |
| C90 | `process_slots`, `process_block` and `process_epoch` from altair on | `supply`, `Rated`, `Turnout` and `Stretch` in `Spec/Supply.lean`; a potential (the supply, what missing flags are worth to proposers, and a sync aggregate while the slot has no block) grows by at most a fixed amount per slot and per epoch and not at all by a block beyond what it brings: a block pays for attestations out of the missing flags (C86, C88), the end of an epoch by C87, queues by C51 and C52, rotation by C62; then induction over the stretch |
| C91 | every function that visits a hash set and everything above: block, slot and epoch processing, upgrades, `apply_block` | `reorder`, `Imports`, `Rejects` in `Spec/Order.lean`; functions that visit no set are equal for all orders; sums over a set and sorted sets are equal; tests for membership are equal; loops over a set (`apply_flags`, inclusion rewards, translation of participation) consist of steps that commute; these facts are put together along the call graph |
| C92 | `Spec::parse`, the five loops of `on_top_of`, `assemble_items`, `run`; sources as lists of items with the names they mention and call; the items of the repository and of its generated modules in `Examples/SpecGenData.lean` | `InForce`, `Retyped`, `wanted` and the conventions in `Spec/SpecGen.lean`; each loop adds, up to order, the entries of the previous fork of its kind whose names are not known (`pass_ok`); induction over the forks; the repository by evaluation in the kernel |
| C93 | `process_slots`, `process_block` and `process_epoch` | `Follows`, `Followed`, `ahead`, `turn` and `Orderly` in `Spec/Turn.lean`; a block moves nobody on the queue (`Still`, followed through every operation), the end of an epoch serves it as C87 says, what is final stays so (C19); so those ahead become fewer by the limit per epoch until the validator has its turn, by induction over the stretch |
| C94 | every entry point up to deneb, genesis and the upgrades; `process_slots` and `process_block` of capella and deneb | `leavingBefore`, `Passes` and `PaysOut` in `Spec/Leaving.lean`; each call only adds exit epochs that follow upon a full epoch (`Dense`, followed through every operation), so that in a reachable state no epoch of the queue is short of the minimum (`Compact`) and an induction over the epochs bounds the wait; the entry of a leaving validator keeps its exit epoch, its address and, unless it is slashed before it, its withdrawable epoch (`Abides`); then C45 (nobody is left unpaid for as many blocks as there are validators) and C86 (the payload pays what was due). In electra the queue is followed along any run of calls (`Rationed`), with the invariant that all epochs after its start are used up at the smallest churn (`UsedUp`) |
| C95 | `process_slots` and `process_block` of every fork, the upgrades | `Journey`, `CarriesVote`, `Quorum` and `EpochEnds` in `Spec/Liveness.lean`; a vote that a block carries is put on record (C86), and the record (`OnRecord`: the pending attestation or the flag, the root of the target, the activity of the voter, the committee) is followed through blocks, slots, the rotation at the end of the epoch (C62) and the upgrades, of which the one to altair turns attestations into flags (C34); at the end of the epoch a quorum is then a `Supermajority`, and the rules of finalization (C19) are gone through case by case |
| C96 | `process_epoch`, `process_slots`, `process_block` and `state_transition` in every fork | `Countable`, `Acceptable`, `CanPropose`, `EngineBuilds` in `Spec/Advance.lean`, their electra counterparts in `Spec/AdvanceElectra.lean` (the withdrawals of an electra block are those the code expects, with the validator that C54 shows it debits); `Firm T` (`Proofs/Firm.lean`): a computation fails only with a panic or an error in `T`; it is shown of every step of epoch processing, each from what the steps before leave (`Proofs/Advance*.lean`), and with the absence of panics (C55, C66) gives success; for blocks, the parts of C86 are run one after the other on the conditions that C18, C24, C44, C47 and C23 show equivalent to their success |
| C97 | `process_block`, `process_slots`, `state_transition` and the upgrades as wholes, with the two slashing operations and `slash_validator` in them | `Offender`, `ChainFuture` in `Spec/Guilt.lean`; no step but the two slashing operations adds to the slashed (`Clean`), these add only members of a list all of whom are offenders by the checks before (`SlashOnly`, `Evid`), also when they fail half-way; induction over the history. Acceptance: absence of panics (C55) and of other errors (`Firm`), slashing by slashing (`Proofs/GuiltShown.lean`, `Proofs/GuiltElectra.lean`) |
| C98 | `process_slots`, `process_block` and the upgrades as wholes, in every fork, with all that takes from a balance | `wealth`, `Dutiful` in `Spec/Keep.lean`; the end of an epoch by the closed form of C87 (a timely vote with source and target has no penalty, with or without a leak; in phase0 a vote with the right head, which in a leak must be included in the next slot), a block by the account book of C88 summed over the two books (`Proofs/KeepBook.lean`), the upgrades by what they carry (C34); that nobody slashes it is C97; induction over the stretch. A vote in a block becomes a flag (C86) that the chain keeps to the end of the next epoch (`Proofs/KeepVotes.lean`) |
| C99 | the exit queue, `process_registry_updates` and everything else that writes an activation or exit epoch, phase0 to deneb | `joinsIn`, `pace`, `activeOnlyIn` in `Spec/Pace.lean`. Leaving: a relation followed through every entry point, failing calls included, by which the number of exits in an epoch grows only while it is below the limit (`Proofs/Pace.lean`). Joining: by the account of one epoch's activations of C93, as each epoch end uses a new epoch. The active sets of two epochs differ by those that joined or left in between, counted epoch by epoch. Electra rations by balance (C50, C51) |
| C100 | everything that writes an exit or a withdrawable epoch, in every fork, and what withdrawals pay | `Locked` in `Spec/Lock.lean`: the withdrawable epoch is the delay or more after the exit epoch, or has not been set. Followed through every entry point, failing calls included, genesis and upgrades (`Proofs/Lock.lean`); that the epochs in which a validator was active do not change later is C66's relation. With C97 the evidence is then accepted, and with C44 and C86 a block pays at most the excess. |
| C101 | `ec validator generate-lighthouse-keystores` from the seed to the printed JSON: derivation, encryption and the derived serialisation; text of JSON, scrypt, AES and the public key of a secret key abstract, the random draws arguments | `openFile` in `Spec/KeyFiles.lean` reads a keystore as EIP-2335 says; what is written is what it reads (hex round trip), then C57 and C61 |
| C102 | deposits, registry updates, the activation queue, over stretches of the chain; in electra also the credit of deposits, consolidations and effective balances at the end of an epoch | composition of C25, C86 and C93: the block leaves a validator that is not on the queue and has the full effective balance (`Proofs/Joining.lean`); blocks keep that, the end of the epoch puts it on the queue, and C93 gives the time. The numbers before it are `ahead` of C93, in the state in which its place is final. In electra blocks enrol validators without stake and queue the amounts (`Proofs/Newcomers.lean`: relations over all parts of a block, as in C93). For the activation (`Proofs/Funded.lean`) the start is the end of the epoch that credits the deposits (`CreditedAt` of C103): the credit survives the consolidations of that epoch, lifts the effective balance, and from there the argument is the same. |
| C103 | electra's queue of pending deposits, over stretches of the chain | `Credits`, `InLine` and `slowestCredit` in `Spec/Credit.lean`. A preorder (the queue is only appended to) for blocks and consolidations; C51 for the ends of epochs; the invariant `Pace`: the epochs passed times the smallest churn are at most what has been credited plus what is carried over, which is less than the next deposit. |
| C104 | `spec-gen/src/type_generator.rs`, from the structs of the forks to the enums; the structs of the nine types (`TypeGenTables`, transcribed by a script) | `Regular`, `Leads`, `AsksVariant`, `AsksVersion` and `NoClash` in `Spec/TypeGen.lean`. The nested loops are one fold over the stream of all fields, whose result is known by induction (`Merged`: names once, fork of the first, type of the last); the arms follow from it and from the conventions. The repository's own structs are checked by evaluation in the kernel and the result is compared with the tables of C82. |
| C105 | nothing new: every entry point and upgrade | `Future` in `Spec/Duties.lean`. Two relations hold through every call and upgrade: the marks of validators (slashed, exit epoch, credentials) stay (`Marked`), and the slot of the latest header and the deposit index do not go back (`Ahead`). Each operation leaves a mark with which it is refused. Withdrawal requests and receipts of electra have no such mark and are not claimed. |
| C106 | nothing new | `TypedPhase0` in `Spec/Capacity.lean`: the states of a client whose blocks hold at most `A` attestations. The records of the current epoch never outnumber `A` times the slots of the epoch with a block so far: an invariant of every step, failed or not, like the one of C24. False for the previous epoch (`C106_overflow`): its late attestations can be included again in the next epoch; twice the capacity is a bound. The queues of electra check their limits before they push. |
| C107 | `ExecutionPayloadHeader::try_from` on the level of SSZ (`Model/Blinding.lean`) | `StandsFor` and `HeaderOf` in `Spec/Blinding.lean`: two values have the same named fields, but for one that is swapped. The root of a struct is a function of the roots of its fields, so a swap of a field for one with the same root keeps the root; the root of a list or a body is a hash, and a `Root` with these bytes has itself as its root. The converse directions are C76. |
| C56 | total balance | permutation invariance of the overflow-checked fold |
| C57 | `hkdf_mod_r` with abstract HKDF | loop exit condition |
| C58 | phase0 attestation deltas | arithmetic bounds |
| C59 | write sets of every operation, block, epoch and slot function | `Modifies W m`, compositional |
| C60 | Electra's withdrawal processing | exact condition; counterexample witness |
| C61 | keystore encryption with abstract AES and KDF | the two counter modes agree while the low 64 bits do not wrap; counterexample witness |
| C62, C65 | participation records, pending attestations | exact post-state; invariant over chains |
| C63 | historical roots and summaries | invariant over chains with blocks and upgrades |
| C64 | flag deltas and inactivity penalties | exact post-state against an independent formula |

The theorems of each property and its status are in `MANIFEST.json`. A property
is `partial` when its claim, read literally, is false of the code; then there is
a `_partial` theorem for the part that holds and a theorem that proves the
negation on a concrete witness.

## 3. Side conditions

Theorems about arithmetic name what they assume. The recurring assumptions are

* `SaneConfig`, `SaneBalances`, `SaneQuotients`, `SaneEpochs`: divisors of the configuration
  are not zero and its constants are small;
* `Shaped`, `Parallel`, `Wellformed`: the state has the lengths its Rust type
  enforces, lists over validators have equal lengths (C12 proves that this is
  preserved), the clock is below 2^48 slots;
* `SweepReady`, `Room`, `BlockReady`, `EpochReady`: indices in range and balances
  far enough below 2^64. Every configuration of the repository meets the first
  group (`Examples/Presets.lean`).

Each has an `example` beside the theorems that use it.

## 4. Where the code departs from what one would expect

Found while proving; each is visible in a theorem or example.

* Voluntary exits: `shard_committee_period` is counted from
  `activation_eligibility_epoch`, not from the activation epoch (C27).
* `slash_validator` from altair on computes the proposer's share with the factor
  `PROPOSER_WEIGHT / WEIGHT_DENOMINATOR`, which is 0 in integers: the
  whistleblower gets everything. This cannot be seen when no whistleblower is
  given, as in every call of the code (C10).
* `process_operations` subtracts `eth1_deposit_index` from `deposit_count`
  unchecked. A majority for a smaller deposit count makes every later block
  panic (C55_deposit_count_panics; in a release build the subtraction wraps).
* `process_block_header` writes `latest_block_header` before it checks that the
  proposer is not slashed, so a rejected block leaves a changed state (C15).
* `get_block_root_at_slot` at slot 0 underflows in its error branch (C17).
* `get_finality_delay` underflows when the finalized epoch is after the previous
  epoch.
* `compute_shuffled_indices` with no rounds underflows on a non-empty list
  (`SaneConfig` asks for a round).
* `compute_committee` with an index out of range panics with the `shuffling`
  feature and returns an error without it.
* `initiate_validator_exit` sets the exit epoch before the overflow error of the
  withdrawable epoch.
* Calling `process_epoch` twice, or again after a late failure, can move the
  justified checkpoint backwards. C19 is about successful slot processing.
* `process_attestation` of phase0 pushes without a check of the capacity of the list
  (`phase0/block_processing.rs:277,288`). The list of the previous epoch can be filled beyond it
  (C106_overflow); in the specification such a block is invalid.
* Phase0 rewards compare the balance that attested in the previous epoch with
  the balance active now, so a reward can exceed its base (C58_exceeds; C64's
  bound asks that nobody left).
* `process_sync_aggregate` panics on a committee key that is not in the registry;
  of two validators with the same key the later one is paid (C32).
* Withdrawals on an empty registry divide by zero (Capella on).
* Genesis from altair on panics when no validator is active, and so does the end
  of a sync committee period when nobody is active afterwards (C66_nobody_panics).
* The executor multiplies `fork_epoch * slots_per_epoch`, which overflows for an
  unscheduled fork (`u64::MAX`); a block that fails after the state was advanced
  leaves a state that no longer accepts it (C35_stuck); Electra is not handled;
  a phase0 block after the altair fork slot is accepted.
* Slot stream: skips slots when polled late, repeats when polled early
  (C39_skips, C39_repeats). `duration_until_next_slot` panics at the end of time.
* Blobs: packing drops the last bytes of some lengths (C42_drops); the decoder's
  size check is off by five and then slices out of range (C42_decode_panics).
* Text: custom networks do not parse back; a root without `0x` that has only
  decimal digits is read as a slot (C41). `ApplicationMask` and
  `ApplicationBuilder` have the same domain bytes (C37).
* The public key in a keystore has the prefix `0x`, which EIP-2335 does not write
  (`C101_prefix`).
* Keystores encrypt with a 64-bit counter where EIP-2335 uses 128 bits
  (C61_counter_wraps).
* JSON: `seq_of_str` borrows its strings, so types with lists of integers, among
  them every beacon state, are not read through `serde_json::from_value` or
  `from_reader` (C74_states_not_owned). Eleven types write numbers; updates for
  light clients with `signature_slot` as a string, as the beacon API has it, are
  refused (C72_string_slot_refused). The enums over forks read Electra states and
  payloads as Deneb and drop fields (C73_electra_read_as_deneb). The field
  `validator_public_key` of withdrawal requests is renamed to `pubkey`, where the
  specification says `validator_pubkey`.
* `spec-gen` relies on conventions it does not check. A constant that a fork redefines is
  exported twice (C92_constant_twice); a function whose container one fork redefines
  and the next does not is imported from a file that does not have it
  (C92_dangling_import); a function that calls a redefined function but mentions no
  redefined container keeps calling the old one (C92_stale_call). None of this happens
  in the repository (C92_repo).
* Electra (an unfinished fork in the repository):
  * `get_attesting_indices` uses the position of the committee as its bit offset,
    so an aggregate of several committees counts the wrong validators (C53);
  * queued partial withdrawals are recorded for the validator at the sweep
    cursor (C54); after a full payload the cursor is set from the index of the
    last withdrawal instead of its validator, which skips validators (C60);
  * every block is rejected while deposits of the old kind are due (C26);
  * consolidations overflow on the withdrawable epoch, so none ever succeeds with
    overflow checks (C69_consolidation_fails);
  * a deposit with an invalid signature fails the block, after a top-up has
    already been queued;
  * `compute_consolidation_epoch_and_update_churn` uses the exit churn limit,
    `process_registry_updates` has no churn limit, the upgrade resets
    eligibility epochs, and genesis sets `deposit_receipts_start_index` to 0;
  * `process_slashings` multiplies an effective balance in increments, now up to
    2048, by the slashed balances, which overflows a `u64` once they reach a third
    of 2^53 Gwei, 3 million ether (C78_slashings_overflow).
* `get_blob_sidecars` of the API client passes a slice as the value of a query
  parameter, which the encoder of queries refuses: no request is sent
  (C80_sent).
* `get_peer` and `get_events` of the API client join a path that begins with `/`,
  which drops the path of the endpoint (C80_outside); for the other methods a path
  of the endpoint without `/` at its end loses its last part (C80_base).
* `post_liveness` sends indices as numbers, where the standard has decimal strings
  and the methods for duties send them (C80_liveness_refused).
* `post_signed_beacon_block_v2` sends `null` for missing proofs and blobs, where the
  standard has no such fields before Deneb, and lists since
  (C80_served_partial).
* `get_randao` expects a string where the standard has `{"randao": …}`;
  `get_beacon_header_at_head`, `_for_slot` and `_for_parent_root` expect a header
  where it has an array of headers; `get_light_client_updates` expects
  `{"data": […]}` where it has an array; `get_light_client_finality_update` and
  `_optimistic_update` expect a number where it has a string; `get_block_proposal`
  expects a block where it has, since Deneb, a block with its blobs. All of these
  fail for every answer of the standard (C81_misread).
* No method compares a block or state with the fork that the answer names for it
  (C81_version_ignored), and most do not look at the status of the answer
  (C81_status_ignored).
* A context for the network Hoodi has no clock and no genesis time, although its
  configuration gives it (C38_hoodi).
