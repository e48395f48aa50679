/-!
# Model prelude: errors, checked 64-bit arithmetic, indexing

Rust integers `u64`/`usize` are modelled by `Nat`, with every operation that Rust
checks (with overflow checks on: the `dev`/`test` profiles; `Cargo.toml` of /repo
sets no `overflow-checks` override) returning an explicit panic. A computation of
the model that does not end in `Err.panic .overflow` performed no wrap-around, so
it is also what a release build computes.
-/

namespace Verif

/-- Exclusive upper bound of `u64` (and of 64-bit `usize`). -/
def U64_BOUND : Nat := 2 ^ 64

/-- `primitives.rs:45` `FAR_FUTURE_EPOCH = u64::MAX`. -/
def FAR_FUTURE_EPOCH : Nat := 2 ^ 64 - 1

/-- `primitives.rs:44` `GENESIS_EPOCH = 0`. -/
def GENESIS_EPOCH : Nat := 0

/-- `primitives.rs:43` `GENESIS_SLOT = 0`. -/
def GENESIS_SLOT : Nat := 0

/-- The ways a Rust function of the crate can panic. -/
inductive Panic
  /-- `u64`/`usize` overflow or underflow with overflow checks on. -/
  | overflow
  /-- slice or list index out of bounds. -/
  | outOfBounds
  /-- division or remainder by zero. -/
  | divByZero
  /-- `unwrap`/`expect` on `None`/`Err`. -/
  | unwrap
  deriving DecidableEq, Repr

/-- `error.rs:15-66` and the nested error enums `error.rs:69-270`, flattened; the
payloads of the Rust variants (used for messages only) are dropped, except where
two places of the code are distinguished by them. `panic` and `diverged` are not
Rust errors: they stand for a Rust panic and for a loop that has not finished
within the model's fuel. -/
inductive Err
  | panic (k : Panic)
  | diverged
  | outOfBounds
  | collectionCannotBeEmpty
  | invalidShufflingIndex
  | slotOutOfRange
  | overflow
  | underflow
  | transitionToPreviousSlot
  | invalidStateRoot
  | invalidEpoch
  | invalidForkTransition
  | bls
  -- InvalidBeaconBlockHeader, error.rs:105-116
  | headerStateSlotMismatch
  | headerParentBlockRootMismatch
  | headerProposerSlashed
  | headerOlderThanLatestBlockHeader
  | headerProposerIndexMismatch
  -- InvalidAttestation, error.rs:119-134
  | attestationBitfield
  | attestationInvalidTargetEpoch
  | attestationInvalidSlot
  | attestationNotTimely
  | attestationInvalidIndex
  | attestationInvalidSource
  | attestationNoDelay
  -- InvalidIndexedAttestation, error.rs:137-146
  | indexedAttestingIndicesEmpty
  | indexedDuplicateIndices
  | indexedAttestingIndicesNotSorted
  | indexedInvalidIndex
  -- InvalidDeposit, error.rs:149-156
  | depositIncorrectCount
  | depositInvalidProof
  | depositInvalidSignature
  | randao
  -- InvalidProposerSlashing, error.rs:159-172
  | proposerSlashingSlotMismatch
  | proposerSlashingProposerMismatch
  | proposerSlashingHeadersAreEqual
  | proposerSlashingProposerIsNotSlashable
  | proposerSlashingInvalidSignature
  | proposerSlashingInvalidIndex
  -- InvalidAttesterSlashing, error.rs:175-180
  | attesterSlashingNotSlashable
  | attesterSlashingNoSlashings
  -- InvalidVoluntaryExit, error.rs:183-198
  | exitInvalidIndex
  | exitInactiveValidator
  | exitValidatorAlreadyExited
  | exitEarlyExit
  | exitValidatorIsNotActiveForLongEnough
  | exitInvalidSignature
  | exitNonZeroPendingBalanceToWithdraw
  -- InvalidWithdrawals, error.rs:201-204
  | incorrectWithdrawals
  -- InvalidBlsToExecutionChange, error.rs:207-214
  | blsChangeValidatorIndexOutOfBounds
  | blsChangeWithdrawalCredentialsPrefix
  | blsChangePublicKeyMismatch
  -- InvalidConsolidation, error.rs:217-242
  | consolidationInvalidIndex
  | consolidationPendingConsolidationsQueueFull
  | consolidationInsufficientConsolidationChurnLimit
  | consolidationEqualSourceAndTargetIndices
  | consolidationInactiveValidator
  | consolidationExitInitiatedForValidator
  | consolidationEarlyConsolidation
  | consolidationMissingExecutionWithdrawalCredentials
  | consolidationWithdrawalCredentialsMismatch
  -- InvalidSyncAggregate, error.rs:245-248
  | syncAggregateInvalidSignature
  -- InvalidExecutionPayload, error.rs:251-260
  | payloadInvalidParentHash
  | payloadInvalidPrevRandao
  | payloadInvalidTimestamp
  | payloadInvalidBlobCommitments
  -- ExecutionEngineError, error.rs:271-278
  | executionEngine
  deriving DecidableEq, Repr

/-- Result of a Rust function that reads but does not write the state. -/
abbrev R := Except Err

/-- Did the call panic? (As opposed to returning `Ok`/`Err`.) -/
def Err.isPanic : Err → Bool
  | .panic _ => true
  | _ => false

namespace U64

/-- `a + b` on `u64`. -/
def add (a b : Nat) : R Nat :=
  if a + b < U64_BOUND then .ok (a + b) else .error (.panic .overflow)

/-- `a - b` on `u64`. -/
def sub (a b : Nat) : R Nat :=
  if b ≤ a then .ok (a - b) else .error (.panic .overflow)

/-- `a * b` on `u64`. -/
def mul (a b : Nat) : R Nat :=
  if a * b < U64_BOUND then .ok (a * b) else .error (.panic .overflow)

/-- `a / b` on `u64`. -/
def div (a b : Nat) : R Nat :=
  if b = 0 then .error (.panic .divByZero) else .ok (a / b)

/-- `a % b` on `u64`. -/
def mod (a b : Nat) : R Nat :=
  if b = 0 then .error (.panic .divByZero) else .ok (a % b)

/-- `a.checked_add(b).ok_or(Error::Overflow)`. -/
def checkedAdd (a b : Nat) : R Nat :=
  if a + b < U64_BOUND then .ok (a + b) else .error .overflow

/-- `a.checked_sub(b).ok_or(Error::Underflow)`. -/
def checkedSub (a b : Nat) : R Nat :=
  if b ≤ a then .ok (a - b) else .error .underflow

end U64

@[inherit_doc] infixl:65 " +? " => U64.add
@[inherit_doc] infixl:65 " -? " => U64.sub
@[inherit_doc] infixl:70 " *? " => U64.mul
@[inherit_doc] infixl:70 " /? " => U64.div
@[inherit_doc] infixl:70 " %? " => U64.mod

/-- `xs[i]` in Rust: panics when out of bounds. -/
def idx {α : Type} (xs : List α) (i : Nat) : R α :=
  match xs[i]? with
  | some x => .ok x
  | none => .error (.panic .outOfBounds)

/-- `xs[i] = v` in Rust: panics when out of bounds. -/
def setIdx {α : Type} (xs : List α) (i : Nat) (v : α) : R (List α) :=
  if i < xs.length then .ok (xs.set i v) else .error (.panic .outOfBounds)

/-- `xs.get(i).ok_or(e)`. -/
def getOr {α : Type} (xs : List α) (i : Nat) (e : Err) : R α :=
  match xs[i]? with
  | some x => .ok x
  | none => .error e

/-- `if bad { return Err(e) }`. -/
def rejectIf (bad : Bool) (e : Err) : R Unit :=
  if bad then .error e else .ok ()

/-- Fixed-size byte arrays `[u8; n]`, `ByteVector<n>`. -/
abbrev Bytes (n : Nat) := Vector UInt8 n

/-- `n` little-endian bytes of a number: `to_le_bytes` (and truncation `as u32`,
`as u8` before it when the number is too big). -/
def leBytes : (n : Nat) → Nat → List UInt8
  | 0, _ => []
  | n + 1, x => UInt8.ofNat x :: leBytes n (x / 256)

/-- `u64::from_le_bytes`. -/
def ofLeBytes : List UInt8 → Nat
  | [] => 0
  | b :: bs => b.toNat + 256 * ofLeBytes bs

/-! ## Sorting -/

/-- Insert into a sorted list, before the first element that is not smaller. -/
def insertBy {α : Type} (le : α → α → Bool) (x : α) : List α → List α
  | [] => [x]
  | y :: ys => if le x y then x :: y :: ys else y :: insertBy le x ys

/-- `slice::sort`, `sort_by`, `sort_unstable` of the standard library: a sorted
permutation. (Where the code uses the unstable sort, the keys are distinct or equal
keys are equal elements.) -/
def sortBy {α : Type} (le : α → α → Bool) : List α → List α
  | [] => []
  | x :: xs => insertBy le x (sortBy le xs)

end Verif
