import Verif.Model.Network

/-! # Text encodings

`ethereum-consensus/src/serde.rs` and the identifiers of `beacon-api-client/src/types.rs`.

Text is a list of characters. The libraries these functions call are modelled from their
documented behaviour: `hex::encode`, `hex::decode` (the `hex` crate), `u64: Display` and
`u64: FromStr` (the Rust core library). Which error is returned is not modelled, only that there is
one. JSON itself (quoting) is not modelled: the functions below are what produces and consumes the
contents of JSON strings. -/

namespace Verif.Text

/-! ## Hexadecimal -/

/-- The lower-case digit of a value below 16, as written by `{:02x}` and by `hex::encode`. -/
def hexDigit (n : Nat) : Char :=
  match n with
  | 0 => '0' | 1 => '1' | 2 => '2' | 3 => '3' | 4 => '4' | 5 => '5' | 6 => '6' | 7 => '7'
  | 8 => '8' | 9 => '9' | 10 => 'a' | 11 => 'b' | 12 => 'c' | 13 => 'd' | 14 => 'e' | _ => 'f'

/-- The value of a digit as read by `hex::decode`, which accepts both cases. -/
def hexValue (c : Char) : Option Nat :=
  if '0' ≤ c ∧ c ≤ '9' then some (c.toNat - '0'.toNat)
  else if 'a' ≤ c ∧ c ≤ 'f' then some (c.toNat - 'a'.toNat + 10)
  else if 'A' ≤ c ∧ c ≤ 'F' then some (c.toNat - 'A'.toNat + 10)
  else none

/-- `write_hex_from_bytes`, `serde.rs:6-12`; also `hex::encode` -/
def write_hex_from_bytes (data : List UInt8) : List Char :=
  data.flatMap fun b => [hexDigit (b.toNat / 16), hexDigit (b.toNat % 16)]

/-- `write_bytes_to_lower_hex`, `serde.rs:14-20`; also `as_hex::serialize`, `serde.rs:49-56` -/
def write_bytes_to_lower_hex (data : List UInt8) : List Char :=
  '0' :: 'x' :: write_hex_from_bytes data

/-- `write_bytes_to_lower_hex_display`, `serde.rs:22-36` -/
def write_bytes_to_lower_hex_display (data : List UInt8) : List Char :=
  let len := data.length
  if 4 ≤ len then
    '0' :: 'x' :: write_hex_from_bytes (data.take 2) ++
      '…' :: write_hex_from_bytes (data.drop (len - 2))
  else '0' :: 'x' :: write_hex_from_bytes data

/-- `hex::decode`: fails on an odd number of characters and on characters that are not digits. -/
def hexDecode : List Char → Option (List UInt8)
  | [] => some []
  | [_] => none
  | a :: b :: rest => do
    let x ← hexValue a
    let y ← hexValue b
    let bytes ← hexDecode rest
    pure (UInt8.ofNat (16 * x + y) :: bytes)

/-- `str::strip_prefix("0x")` with `unwrap_or(s)`, `serde.rs:39` -/
def stripPrefix : List Char → List Char
  | '0' :: 'x' :: rest => rest
  | s => s

/-- `try_bytes_from_hex_str`, `serde.rs:38-42` -/
def try_bytes_from_hex_str (s : List Char) : Option (List UInt8) :=
  hexDecode (stripPrefix s)

/-- `as_hex::deserialize`, `serde.rs:58-69`, for a type whose values are the byte strings that
satisfy `fits`: `ByteVector<N>` (`ssz/byte_vector.rs:24-30`, exactly `N` bytes) or `ByteList<N>`
(`ssz/byte_list.rs:14-20`, at most `N` bytes) -/
def as_hex_deserialize (fits : List UInt8 → Bool) (s : List Char) : Option (List UInt8) := do
  let data ← try_bytes_from_hex_str s
  if fits data then pure data else none

/-- The values of `ByteVector<N>`, `ssz/byte_vector.rs:24-30` -/
def isVector (n : Nat) (data : List UInt8) : Bool := data.length == n

/-- The values of `ByteList<N>`, `ssz/byte_list.rs:14-20` -/
def isList (n : Nat) (data : List UInt8) : Bool := data.length ≤ n

/-! ## Decimal -/

/-- A decimal digit -/
def decDigit (n : Nat) : Char :=
  match n with
  | 0 => '0' | 1 => '1' | 2 => '2' | 3 => '3' | 4 => '4' | 5 => '5' | 6 => '6' | 7 => '7'
  | 8 => '8' | _ => '9'

/-- `u64: Display` (`as_str::serialize`, `serde.rs:76-81`): no leading zeros, no sign -/
def decimal (n : Nat) : List Char :=
  if n < 10 then [decDigit n] else decimal (n / 10) ++ [decDigit (n % 10)]
termination_by n
decreasing_by omega

/-- The value of a decimal digit -/
def decValue (c : Char) : Option Nat :=
  if '0' ≤ c ∧ c ≤ '9' then some (c.toNat - '0'.toNat) else none

/-- The digit loop of `u64::from_str`, which fails when the value leaves the range. -/
def parseDigits (acc : Nat) : List Char → Option Nat
  | [] => some acc
  | c :: cs => do
    let d ← decValue c
    if acc * 10 + d < 2 ^ 64 then parseDigits (acc * 10 + d) cs else none

/-- `u64: FromStr` (`as_str::deserialize`, `serde.rs:83-91`): an optional `+`, then at least one
digit -/
def parseU64 (s : List Char) : Option Nat :=
  match s with
  | [] => none
  | ['+'] => none
  | '+' :: rest => parseDigits 0 rest
  | s => parseDigits 0 s

/-- `seq_of_str::serialize`, `serde.rs:101-114` -/
def seq_of_str_serialize (data : List Nat) : List (List Char) := data.map decimal

/-- `seq_of_str::deserialize`, `serde.rs:116-149`, for a collection that holds the sequences that
satisfy `fits` -/
def seq_of_str_deserialize (fits : List Nat → Bool) (elems : List (List Char)) :
    Option (List Nat) := do
  let coll ← elems.mapM parseU64
  if fits coll then pure coll else none

/-! ## Identifiers -/

/-- `StateId`, `beacon-api-client/src/types.rs:58-66`. A root is its 32 bytes. -/
inductive StateId
  | Head
  | Genesis
  | Finalized
  | Justified
  | Slot (slot : Nat)
  | Root (root : List UInt8)
  deriving DecidableEq, Repr

/-- `impl Display for StateId`, `types.rs:68-80`. `{root:?}` writes the whole root in hexadecimal. -/
def StateId.display : StateId → List Char
  | .Finalized => "finalized".toList
  | .Justified => "justified".toList
  | .Head => "head".toList
  | .Genesis => "genesis".toList
  | .Slot slot => decimal slot
  | .Root root => write_bytes_to_lower_hex root

/-- `impl FromStr for StateId`, `types.rs:82-107` -/
def StateId.from_str (s : List Char) : Option StateId :=
  if s = "finalized".toList then some .Finalized
  else if s = "justified".toList then some .Justified
  else if s = "head".toList then some .Head
  else if s = "genesis".toList then some .Genesis
  else match parseU64 s with
  | some slot => some (.Slot slot)
  | none => match try_bytes_from_hex_str s with
    | some root_data => if root_data.length = 32 then some (.Root root_data) else none
    | none => none

/-- `BlockId`, `types.rs:113-120` -/
inductive BlockId
  | Head
  | Genesis
  | Finalized
  | Slot (slot : Nat)
  | Root (root : List UInt8)
  deriving DecidableEq, Repr

/-- `impl Display for BlockId`, `types.rs:122-134` -/
def BlockId.display : BlockId → List Char
  | .Finalized => "finalized".toList
  | .Head => "head".toList
  | .Genesis => "genesis".toList
  | .Slot slot => decimal slot
  | .Root root => write_bytes_to_lower_hex root

/-- `PublicKeyOrIndex`, `types.rs:187-191` -/
inductive PublicKeyOrIndex
  | PublicKey (pk : List UInt8)
  | Index (i : Nat)
  deriving DecidableEq, Repr

/-- `impl Display for PublicKeyOrIndex`, `types.rs:193-200` -/
def PublicKeyOrIndex.display : PublicKeyOrIndex → List Char
  | .PublicKey pk => write_bytes_to_lower_hex pk
  | .Index i => decimal i

/-- `ValidatorStatus`, `types.rs:148-164` -/
inductive ValidatorStatus
  | PendingInitialized | PendingQueued | ActiveOngoing | ActiveExiting | ActiveSlashed
  | ExitedUnslashed | ExitedSlashed | WithdrawalPossible | WithdrawalDone
  | Active | Pending | Exited | Withdrawal
  deriving DecidableEq, Repr

/-- `impl Display for ValidatorStatus`, `types.rs:166-185` -/
def ValidatorStatus.display : ValidatorStatus → String
  | .PendingInitialized => "pending_initialized"
  | .PendingQueued => "pending_queued"
  | .ActiveOngoing => "active_ongoing"
  | .ActiveExiting => "active_exiting"
  | .ActiveSlashed => "active_slashed"
  | .ExitedUnslashed => "exited_unslashed"
  | .ExitedSlashed => "exited_slashed"
  | .WithdrawalPossible => "withdrawal_possible"
  | .WithdrawalDone => "withdrawal_done"
  | .Active => "active"
  | .Pending => "pending"
  | .Exited => "exited"
  | .Withdrawal => "withdrawal"

end Verif.Text
