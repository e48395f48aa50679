import Verif.Model.Presets
import Verif.Model.Network

/-!
# The consensus clock: `clock.rs`

Instants are nanoseconds since the unix epoch (`u128` in the code). The system clock is not part of
the model: the instants it returns are arguments. `Duration` is its number of nanoseconds.
-/

namespace Verif

/-- Exclusive upper bound of `u128`. -/
def U128_BOUND : Nat := 2 ^ 128

namespace U128

/-- `a + b` on `u128`. -/
def add (a b : Nat) : R Nat :=
  if a + b < U128_BOUND then .ok (a + b) else .error (.panic .overflow)

/-- `a - b` on `u128`. -/
def sub (a b : Nat) : R Nat :=
  if b ≤ a then .ok (a - b) else .error (.panic .overflow)

/-- `a * b` on `u128`. -/
def mul (a b : Nat) : R Nat :=
  if a * b < U128_BOUND then .ok (a * b) else .error (.panic .overflow)

/-- `a / b` on `u128`. -/
def div (a b : Nat) : R Nat :=
  if b = 0 then .error (.panic .divByZero) else .ok (a / b)

end U128

/-- Nanoseconds of a second: `Duration::from_secs(1).as_nanos()`. -/
def NANOS : Nat := 10 ^ 9

/-- `clock.rs:12` -/
def MAINNET_GENESIS_TIME : Nat := 1606824023
/-- `clock.rs:13` -/
def SEPOLIA_GENESIS_TIME : Nat := 1655733600
/-- `clock.rs:14` -/
def GOERLI_GENESIS_TIME : Nat := 1616508000
/-- `clock.rs:15` -/
def HOLESKY_GENESIS_TIME : Nat := 1695902400

/-- `clock.rs:21-25`; `now` is what `duration_since_unix_epoch` (`17-19`) returns, in nanoseconds. -/
def duration_until (unix_timestamp_secs now : Nat) : Nat := unix_timestamp_secs * NANOS - now

/-- `clock.rs:27-29` -/
def slot_to_nanos (slot seconds_per_slot genesis_time : Nat) : R Nat := do
  let a ← U128.mul slot seconds_per_slot
  U128.add a genesis_time

/-- `clock.rs:31-34`; the `expect` is a panic. -/
def u128_to_u64 (t : Nat) : R Nat :=
  if t < U64_BOUND then .ok t else .error (.panic .unwrap)

/-- `clock.rs:38-45` -/
def convert_timestamp_to_slot (timestamp genesis_time seconds_per_slot : Nat) : R (Option Nat) :=
  if genesis_time ≤ timestamp then do
    let slot ← (timestamp - genesis_time) /? seconds_per_slot
    return some slot
  else return none

/-- `clock.rs:49-56` -/
def convert_timestamp_nanos_to_slot (timestamp genesis_time seconds_per_slot : Nat) :
    R (Option Nat) :=
  if genesis_time ≤ timestamp then do
    let q ← U128.div (timestamp - genesis_time) seconds_per_slot
    let slot ← u128_to_u64 q
    return some slot
  else return none

/-- `clock.rs:59-62`; `Duration::from_nanos(n).as_secs()` is `n / 10^9`. -/
def convert_slot_to_timestamp (slot seconds_per_slot genesis_time : Nat) : R Nat := do
  let n ← u128_to_u64 seconds_per_slot
  let slot_in_seconds ← slot *? (n / NANOS)
  let g ← u128_to_u64 genesis_time
  slot_in_seconds +? (g / NANOS)

/-- `Clock` and `Inner`, `clock.rs:82-98`, without the time provider. -/
structure Clock where
  genesis_time : Nat
  seconds_per_slot : Nat
  slots_per_epoch : Nat
  deriving DecidableEq, Repr

namespace Clock

/-- `Clock::new`, `clock.rs:138-148`, and `from_system_time`, `clock.rs:100-107` -/
def new (genesis_time seconds_per_slot slots_per_epoch : Nat) : Clock where
  genesis_time := genesis_time * NANOS
  seconds_per_slot := seconds_per_slot * NANOS
  slots_per_epoch := slots_per_epoch

/-- `for_mainnet`, `clock.rs:109-114` -/
def for_mainnet : Clock :=
  new MAINNET_GENESIS_TIME Context.mainnet.seconds_per_slot Context.mainnet.slots_per_epoch

/-- `for_sepolia`, `clock.rs:116-121` -/
def for_sepolia : Clock :=
  new SEPOLIA_GENESIS_TIME Context.sepolia.seconds_per_slot Context.mainnet.slots_per_epoch

/-- `for_goerli`, `clock.rs:123-128` -/
def for_goerli : Clock :=
  new GOERLI_GENESIS_TIME Context.goerli.seconds_per_slot Context.mainnet.slots_per_epoch

/-- `for_holesky`, `clock.rs:130-135` -/
def for_holesky : Clock :=
  new HOLESKY_GENESIS_TIME Context.holesky.seconds_per_slot Context.mainnet.slots_per_epoch

variable (c : Clock)

/-- `before_genesis`, `before_genesis_at`, `clock.rs:154-161` -/
def before_genesis_at (current_time : Nat) : Bool := decide (current_time < c.genesis_time)

/-- `current_slot`, `slot_at_time`, `clock.rs:164-171` -/
def slot_at_time (current_time : Nat) : R (Option Nat) :=
  convert_timestamp_nanos_to_slot current_time c.genesis_time c.seconds_per_slot

/-- `clock.rs:173-176` -/
def timestamp_at_slot (slot : Nat) : R Nat :=
  convert_slot_to_timestamp slot c.seconds_per_slot c.genesis_time

/-- `clock.rs:184-187` -/
def epoch_for (slot : Nat) : R Nat := slot /? c.slots_per_epoch

/-- `current_epoch`, `clock.rs:179-182` -/
def epoch_at_time (current_time : Nat) : R (Option Nat) := do
  match ← c.slot_at_time current_time with
  | none => return none
  | some current_slot =>
    let e ← c.epoch_for current_slot
    return some e

/-- `clock.rs:191-198` -/
def duration_until_slot (slot current_time : Nat) : R Nat := do
  let target_slot_in_nanos ← slot_to_nanos slot c.seconds_per_slot c.genesis_time
  if current_time ≤ target_slot_in_nanos then u128_to_u64 (target_slot_in_nanos - current_time)
  else return 0

/-- `clock.rs:202-214` -/
def duration_until_next_slot (current_time : Nat) : R Nat :=
  if c.before_genesis_at current_time then do
    let d ← U128.sub c.genesis_time current_time
    u128_to_u64 d
  else do
    match ← c.slot_at_time current_time with
    | none => .error (.panic .unwrap)
    | some current_slot =>
      let next_slot ← current_slot +? 1
      let target_slot_in_nanos ← slot_to_nanos next_slot c.seconds_per_slot c.genesis_time
      let d ← U128.sub target_slot_in_nanos current_time
      u128_to_u64 d

end Clock

/-! ## The slot stream

`tokio::time::sleep` is modelled by the instant at which it is due: it never completes earlier, and
may be noticed arbitrarily late. -/

/-- `SlotStream`, `clock.rs:234-238` -/
structure SlotStream where
  /-- the instant at which `delay` is due -/
  delay : Nat
  clock : Clock
  first_slot : Option Nat
  deriving DecidableEq, Repr

/-- The instants at which one call reads the clock or the timer, in program order. -/
structure CallTimes where
  /-- polling the timer -/
  polled : Nat
  /-- `get_current_time` in `duration_until_next_slot` -/
  measured : Nat
  /-- `sleep(..)` -/
  armed : Nat
  /-- `get_current_time` in `current_slot` -/
  read : Nat
  /-- the runtime has noticed that the timer is due (if it is) -/
  noticed : Bool
  deriving DecidableEq, Repr

/-- `task::Poll` -/
inductive Polled
  | pending
  | ready (item : Option Nat)
  deriving DecidableEq, Repr

/-- `into_stream`, `clock.rs:242-246` -/
def Clock.into_stream (c : Clock) (t : CallTimes) : R SlotStream := do
  let d ← c.duration_until_next_slot t.measured
  let current_slot ← c.slot_at_time t.read
  return { delay := t.armed + d, clock := c, first_slot := current_slot }

/-- `poll_next`, `clock.rs:253-266` -/
def SlotStream.poll_next (st : SlotStream) (t : CallTimes) : R (Polled × SlotStream) :=
  match st.first_slot with
  | some slot => return (.ready (some slot), { st with first_slot := none })
  | none =>
    if decide (st.delay ≤ t.polled) && t.noticed then do
      let d ← st.clock.duration_until_next_slot t.measured
      let current_slot ← st.clock.slot_at_time t.read
      return (.ready current_slot, { st with delay := t.armed + d })
    else return (.pending, st)

/-- A consumer polling the stream: the results of the polls, in order. (No counterpart in the code:
it is the executor that calls `poll_next`.) -/
def SlotStream.polls (st : SlotStream) : List CallTimes → R (List Polled)
  | [] => return []
  | t :: ts => do
    let r ← st.poll_next t
    let rest ← r.2.polls ts
    return r.1 :: rest

/-! ## Clocks of a context -/

/-- `Context::genesis_time`, `state_transition/context.rs:472-480`; `none` is
`Error::UnknownGenesisTime`. -/
def genesis_time_of : Network → Option Nat
  | .Mainnet => some MAINNET_GENESIS_TIME
  | .Sepolia => some SEPOLIA_GENESIS_TIME
  | .Goerli => some GOERLI_GENESIS_TIME
  | .Holesky => some HOLESKY_GENESIS_TIME
  | _ => none

/-- `Context::clock`, `state_transition/context.rs:482-490` -/
def clock_of : Network → Option Clock
  | .Mainnet => some Clock.for_mainnet
  | .Sepolia => some Clock.for_sepolia
  | .Goerli => some Clock.for_goerli
  | .Holesky => some Clock.for_holesky
  | _ => none

/-- `Context::clock_at`, `state_transition/context.rs:492-494` -/
def Context.clock_at (C : Context) (genesis_time : Nat) : Clock :=
  Clock.new genesis_time C.seconds_per_slot C.slots_per_epoch

/-- `TryFrom<Network> for Context`, `networks.rs:54-70`, for the built-in networks (`none`: the
configuration file of a custom network is read, not modelled). -/
def context_of : Network → Option Context
  | .Mainnet => some Context.mainnet
  | .Sepolia => some Context.sepolia
  | .Goerli => some Context.goerli
  | .Holesky => some Context.holesky
  | .Hoodi => some Context.hoodi
  | .Custom _ => none

/-- `typical_genesis_time`, `networks.rs:74-76` -/
def typical_genesis_time (C : Context) : R Nat := C.min_genesis_time +? C.genesis_delay

end Verif
