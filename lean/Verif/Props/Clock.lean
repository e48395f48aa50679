import Verif.Proofs.Clock

/-! # C38, C39: the clock and the slot stream -/

namespace Verif.Props

open Spec

/-! ## C38 -/

/-- **C38** The clock finds slot `n` at instant `t` exactly if `t` is at or after the start of `n`
and before the start of `n + 1`. -/
theorem C38_slot_iff (g d k n t : Nat) (hd : 0 < d) :
    (Clock.new g d k).slot_at_time t = .ok (some n) ↔ InSlot g d n t ∧ n < 2 ^ 64 :=
  slot_at_some hd

/-- **C38** It finds no slot exactly before genesis, and that is what `before_genesis` tells. -/
theorem C38_before_genesis (g d k t : Nat) :
    ((Clock.new g d k).slot_at_time t = .ok none ↔ t < g * 10 ^ 9) ∧
    ((Clock.new g d k).before_genesis_at t = true ↔ t < g * 10 ^ 9) :=
  ⟨slot_at_none, before_iff⟩

/-- **C38** The same for the conversion with a precision of seconds, which never fails. -/
theorem C38_seconds (ts g d : Nat) (hd : 0 < d) :
    (∃ o, convert_timestamp_to_slot ts g d = .ok o) ∧
    (convert_timestamp_to_slot ts g d = .ok none ↔ ts < g) ∧
    ∀ n, convert_timestamp_to_slot ts g d = .ok (some n) ↔
      slotStart g d n ≤ ts ∧ ts < slotStart g d (n + 1) := by
  unfold convert_timestamp_to_slot slotStart
  split
  · rename_i h
    have e : (ts - g) /? d = .ok ((ts - g) / d) := div_eq_ok.2 ⟨rfl, by omega⟩
    rw [e]
    refine ⟨⟨_, rfl⟩, ⟨fun e => by simp at e, fun _ => by omega⟩, fun n => ?_⟩
    simp only [R_bind_ok, R_pure, Except.ok.injEq, Option.some.injEq]
    rw [div_eq_iff' hd]
    omega
  · rename_i h
    refine ⟨⟨_, rfl⟩, ⟨fun _ => by omega, fun _ => rfl⟩, fun n => ?_⟩
    simp only [R_pure, Except.ok.injEq, reduceCtorEq, false_iff]
    omega

/-- **C38** The timestamp of a slot is its first second; converted back it gives the slot, with
either precision. -/
theorem C38_roundtrip (g d k n ts : Nat) (hd : 0 < d) (hn : n < 2 ^ 64)
    (h : (Clock.new g d k).timestamp_at_slot n = .ok ts) :
    ts = slotStart g d n ∧ convert_timestamp_to_slot ts g d = .ok (some n) ∧
      (Clock.new g d k).slot_at_time (ts * 10 ^ 9) = .ok (some n) := by
  have hts : ts = slotStart g d n := by
    simp only [Clock.timestamp_at_slot, convert_slot_to_timestamp, Clock.new, R_bind_eq_ok,
      u128_to_u64_eq_ok, mul_eq_ok, add_eq_ok] at h
    obtain ⟨_, ⟨rfl, -⟩, _, ⟨rfl, -⟩, _, ⟨rfl, -⟩, rfl, -⟩ := h
    rw [Nat.mul_div_cancel _ NANOS_pos, Nat.mul_div_cancel _ NANOS_pos, slotStart, Nat.add_comm]
  subst hts
  have hlt : slotStart g d n < slotStart g d (n + 1) := by
    unfold slotStart; rw [Nat.add_mul]; omega
  exact ⟨rfl, ((C38_seconds _ g d hd).2.2 n).2 ⟨Nat.le_refl _, hlt⟩,
    (slot_at_some hd).2 ⟨⟨Nat.le_refl _, by omega⟩, hn⟩⟩

/-- **C38** And slots have a timestamp as long as the start of the slot fits 64 bits (and genesis
and slot duration fit 64 bits of nanoseconds). -/
theorem C38_timestamp_iff (g d k n : Nat) :
    (∃ ts, (Clock.new g d k).timestamp_at_slot n = .ok ts) ↔
      g * 10 ^ 9 < 2 ^ 64 ∧ d * 10 ^ 9 < 2 ^ 64 ∧ slotStart g d n < 2 ^ 64 := by
  simp only [Clock.timestamp_at_slot, convert_slot_to_timestamp, Clock.new, R_bind_eq_ok,
      u128_to_u64_eq_ok, mul_eq_ok, add_eq_ok]
  constructor
  · rintro ⟨_, _, ⟨rfl, h1⟩, _, ⟨rfl, -⟩, _, ⟨rfl, h2⟩, rfl, h3⟩
    rw [Nat.mul_div_cancel _ NANOS_pos, Nat.mul_div_cancel _ NANOS_pos] at h3
    refine ⟨h2, h1, ?_⟩
    rw [U64_BOUND_eq] at h3
    unfold slotStart; omega
  · rintro ⟨h1, h2, h3⟩
    unfold slotStart at h3
    refine ⟨_, _, ⟨rfl, h2⟩, _, ⟨rfl, ?_⟩, _, ⟨rfl, h1⟩, rfl, ?_⟩
    · rw [Nat.mul_div_cancel _ NANOS_pos, U64_BOUND_eq]; omega
    · rw [Nat.mul_div_cancel _ NANOS_pos, Nat.mul_div_cancel _ NANOS_pos, U64_BOUND_eq]; omega

/-- **C38** A later instant never lies in an earlier slot. -/
theorem C38_monotone (g d k m n t u : Nat) (hd : 0 < d) (h : t ≤ u)
    (ht : (Clock.new g d k).slot_at_time t = .ok (some m))
    (hu : (Clock.new g d k).slot_at_time u = .ok (some n)) : m ≤ n :=
  inSlot_le ((slot_at_some hd).1 ht).1 ((slot_at_some hd).1 hu).1 h

/-- **C38** The epoch at an instant is the epoch of its slot. -/
theorem C38_epoch (g d k e t : Nat) (hd : 0 < d) (hk : 0 < k) :
    (Clock.new g d k).epoch_at_time t = .ok (some e) ↔
      ∃ n, InSlot g d n t ∧ n < 2 ^ 64 ∧ e = n / k := by
  unfold Clock.epoch_at_time
  rw [R_bind_eq_ok]
  constructor
  · rintro ⟨o, ho, h⟩
    cases o with
    | none => cases h
    | some n =>
      obtain ⟨h1, h2⟩ := (slot_at_some hd).1 ho
      simp only [Clock.epoch_for, R_bind_eq_ok, div_eq_ok, R_pure, Clock.new] at h
      obtain ⟨_, ⟨rfl, -⟩, e⟩ := h
      cases e
      exact ⟨n, h1, h2, rfl⟩
  · rintro ⟨n, h1, h2, rfl⟩
    refine ⟨some n, (slot_at_some hd).2 ⟨h1, h2⟩, ?_⟩
    simp only [Clock.epoch_for, R_bind_eq_ok, div_eq_ok, R_pure, Clock.new]
    exact ⟨_, ⟨rfl, by omega⟩, rfl⟩

/-- **C38** Waiting for a slot as long as told ends exactly at its start, or at once if it has
started already. -/
theorem C38_until_slot (g d k n t δ : Nat)
    (h : (Clock.new g d k).duration_until_slot n t = .ok δ) :
    t + δ = max t (slotStart g d n * 10 ^ 9) := by
  unfold Clock.duration_until_slot at h
  rw [R_bind_eq_ok] at h
  obtain ⟨x, hx, h⟩ := h
  rw [slot_to_nanos_eq_ok] at hx
  have hx : x = slotStart g d n * 10 ^ 9 := by rw [slotStart_nanos]; exact hx.1
  rw [← hx]
  split at h
  · obtain ⟨rfl, -⟩ := u128_to_u64_eq_ok.1 h
    omega
  · cases h; omega

/-- **C38** Waiting for the next slot as long as told ends exactly at the start of the slot after the
current one, or at genesis; it is a positive time, and after genesis at most a slot. -/
theorem C38_until_next_slot (g d k t δ : Nat) (hd : 0 < d)
    (h : (Clock.new g d k).duration_until_next_slot t = .ok δ) :
    0 < δ ∧ (t < g * 10 ^ 9 ∧ t + δ = g * 10 ^ 9 ∨
      δ ≤ d * 10 ^ 9 ∧ ∃ n, InSlot g d n t ∧ t + δ = slotStart g d (n + 1) * 10 ^ 9) := by
  rcases until_next hd h with ⟨h1, h2⟩ | ⟨n, h1, h2⟩
  · have h2 : t + δ = g * 10 ^ 9 := by simpa [slotStart] using h2
    exact ⟨by omega, .inl ⟨h1, h2⟩⟩
  · refine ⟨by have := h1.2; omega, .inr ⟨?_, n, h1, h2⟩⟩
    have e : slotStart g d (n + 1) = slotStart g d n + d := by
      unfold slotStart; rw [Nat.add_mul, Nat.one_mul, Nat.add_assoc]
    have := h1.1
    rw [e, Nat.add_mul] at h2
    omega

/-- **C38** No reading of the clock panics, for genesis times, slot durations and instants that fit
64 bits of nanoseconds (that is until the year 2554). -/
theorem C38_no_panic (g d k t : Nat) (hd : 0 < d) (hg : g * 10 ^ 9 < 2 ^ 64)
    (hd' : d * 10 ^ 9 < 2 ^ 64) (ht : t < 2 ^ 64) :
    (∃ o, (Clock.new g d k).slot_at_time t = .ok o) ∧
      ∃ δ, (Clock.new g d k).duration_until_next_slot t = .ok δ :=
  ⟨slot_at_total hd ht, until_next_total hd hg hd' ht⟩

/-- **C38** The clock of each built-in network that has one is the clock of its configuration at its
genesis time. -/
theorem C38_networks (w : Network) (c : Clock) (h : clock_of w = some c) :
    ∃ g C, genesis_time_of w = some g ∧ context_of w = some C ∧ c = C.clock_at g ∧
      0 < C.seconds_per_slot ∧ 0 < C.slots_per_epoch ∧ g * 10 ^ 9 < 2 ^ 64 ∧
      C.seconds_per_slot * 10 ^ 9 < 2 ^ 64 := by
  cases w <;> simp only [clock_of, Option.some.injEq, reduceCtorEq] at h
  all_goals
    subst h
    refine ⟨_, _, rfl, rfl, by decide +kernel, ?_, ?_, ?_, ?_⟩ <;> decide +kernel

/-- **C38** The genesis times are those at which the networks started; Hoodi's is not known to the
code. -/
theorem C38_genesis_times (w : Network) (hw : w ≠ .Hoodi) : genesis_time_of w = published w := by
  cases w <;> first | contradiction | decide +kernel | rfl

/-- **C38** (gap) There is no clock and no genesis time for Hoodi, although its configuration gives
it. -/
theorem C38_hoodi : clock_of .Hoodi = none ∧ genesis_time_of .Hoodi = none ∧
    some <$> (typical_genesis_time Context.hoodi).toOption = some (published .Hoodi) := by
  decide +kernel

/-- **C38** The typical genesis time of a configuration is when the test networks started; mainnet
started later than its earliest time, but without the delay. -/
theorem C38_typical (w : Network) (C : Context) (h : context_of w = some C) :
    (w ≠ .Mainnet → ∃ t, typical_genesis_time C = .ok t ∧ published w = some t) ∧
    (w = .Mainnet → ∃ t, published w = some t ∧ C.min_genesis_time ≤ t ∧
      t < C.min_genesis_time + C.genesis_delay) := by
  cases w <;> cases h <;> refine ⟨fun h => ?_, fun h => ?_⟩ <;>
    first
    | contradiction
    | exact absurd rfl h
    | exact ⟨_, rfl, by decide +kernel⟩

/-- **C38** It is the earliest time and the delay. -/
theorem C38_typical_iff (C : Context) (t : Nat) : typical_genesis_time C = .ok t ↔
    t = C.min_genesis_time + C.genesis_delay ∧ t < 2 ^ 64 := by
  simp only [typical_genesis_time, U64.add]
  change _ ↔ t = C.min_genesis_time + C.genesis_delay ∧ t < U64_BOUND
  by_cases h : C.min_genesis_time + C.genesis_delay < U64_BOUND
  · rw [if_pos h]
    exact ⟨fun e => by cases e; exact ⟨rfl, h⟩, fun e => by rw [e.1]⟩
  · rw [if_neg h]
    exact ⟨fun e => (by cases e), fun e => absurd (e.1 ▸ e.2) h⟩

/-- Mainnet, the last nanosecond of slot 9 and the first of slot 10. -/
example :
    InSlot 1606824023 12 9 (1606824143 * 10 ^ 9 - 1) ∧ InSlot 1606824023 12 10 (1606824143 * 10 ^ 9) ∧
    (Clock.for_mainnet.slot_at_time (1606824143 * 10 ^ 9 - 1)).toOption = some (some 9) ∧
    (Clock.for_mainnet.slot_at_time (1606824143 * 10 ^ 9)).toOption = some (some 10) ∧
    (Clock.for_mainnet.timestamp_at_slot 10).toOption = some 1606824143 ∧
    (Clock.for_mainnet.duration_until_next_slot (1606824143 * 10 ^ 9 - 1)).toOption = some 1 ∧
    (Clock.for_mainnet.duration_until_slot 9 (1606824143 * 10 ^ 9)).toOption = some 0 ∧
    (Clock.for_mainnet.duration_until_next_slot 1606824022999999990).toOption = some 10 := by
  decide +kernel

/-! ## C39

The claim as stated — consecutive slots for every schedule of polls — is false: a consumer that
polls late skips slots, and a poll during which a slot starts makes the stream yield that slot twice.
What holds is below; both counterexamples follow. -/

/-- **C39** A stream never ends, and every item is the slot at which the call that yields it reads
the clock; the first item of a stream created after genesis is the slot at creation. -/
theorem C39_current_partial (g d k : Nat) (hd : 0 < d) (t₀ : CallTimes) (ts : List CallTimes)
    (st : SlotStream) (outs : List Polled) (h₀ : CallOrder 0 t₀) (ho : InOrder t₀.read ts)
    (hc : (Clock.new g d k).into_stream t₀ = .ok st) (h : st.polls ts = .ok outs) :
    ∀ (i : Nat) t x, ts[i]? = some t → outs[i]? = some (.ready x) → ∃ n, x = some n ∧
      (InSlot g d n t.read ∨ i = 0 ∧ InSlot g d n t₀.read) := by
  obtain ⟨c1, c2, -, c3⟩ := into_stream_inv hd h₀.2.2.1 hc
  rcases c3 with ⟨c3, -⟩ | ⟨n, c3, hn⟩
  · intro i t x hi hx
    obtain ⟨n, e, hn⟩ := polls_current hd ts st _ outs c1 c3 c2 ho h i t x hi hx
    exact ⟨n, e, .inl hn⟩
  · intro i t x hi hx
    cases ts with
    | nil => simp at hi
    | cons t₁ ts =>
      obtain ⟨rest, rfl, h'⟩ := first_poll c3 h
      cases i with
      | zero =>
        simp only [List.getElem?_cons_zero, Option.some.injEq, Polled.ready.injEq] at hx
        exact ⟨n, hx.symm, .inr ⟨rfl, hn⟩⟩
      | succ i =>
        obtain ⟨n, e, hn⟩ := polls_current hd ts { st with first_slot := none } _ rest c1 rfl c2 ho.2 h' i t x hi hx
        exact ⟨n, e, .inl hn⟩

/-- **C39** The slots received never go back, whatever the schedule. -/
theorem C39_sorted_partial (g d k : Nat) (hd : 0 < d) (t₀ : CallTimes) (ts : List CallTimes)
    (st : SlotStream) (outs : List Polled) (h₀ : CallOrder 0 t₀) (ho : InOrder t₀.read ts)
    (hc : (Clock.new g d k).into_stream t₀ = .ok st) (h : st.polls ts = .ok outs) :
    (received outs).Pairwise (· ≤ ·) := by
  obtain ⟨c1, c2, -, c3⟩ := into_stream_inv hd h₀.2.2.1 hc
  rcases c3 with ⟨c3, -⟩ | ⟨n, c3, hn⟩
  · exact (polls_sorted hd ts st _ outs c1 c3 c2 ho h).1
  · cases ts with
    | nil => cases h; exact .nil
    | cons t₁ ts =>
      obtain ⟨rest, rfl, h'⟩ := first_poll c3 h
      obtain ⟨r1, r2⟩ := polls_sorted hd ts { st with first_slot := none } _ rest c1 rfl c2 ho.2 h'
      have hle : t₀.read ≤ t₁.read := by have := ho.1; unfold CallOrder at this; omega
      exact List.pairwise_cons.2 ⟨r2 n (Nat.le_trans hn.1 hle), r1⟩

/-- **C39** No slot is received twice, if no slot starts between the two readings of the clock of any
one call. -/
theorem C39_once_partial (g d k : Nat) (hd : 0 < d) (t₀ : CallTimes) (ts : List CallTimes)
    (st : SlotStream) (outs : List Polled) (h₀ : CallOrder 0 t₀) (ho : InOrder t₀.read ts)
    (hb : ∀ t ∈ t₀ :: ts, Brief g d t)
    (hc : (Clock.new g d k).into_stream t₀ = .ok st) (h : st.polls ts = .ok outs) :
    (received outs).Pairwise (· < ·) := by
  obtain ⟨c1, c2, c4, c3⟩ := into_stream_inv hd h₀.2.2.1 hc
  rcases c3 with ⟨c3, -⟩ | ⟨n, c3, hn⟩
  · exact (polls_strict hd ts st _ outs c1 c3 c2 ho (fun t ht => hb t (List.mem_cons_of_mem _ ht)) h).1
  · cases ts with
    | nil => cases h; exact .nil
    | cons t₁ ts =>
      obtain ⟨rest, rfl, h'⟩ := first_poll c3 h
      obtain ⟨r1, r2⟩ := polls_strict hd ts { st with first_slot := none } _ rest c1 rfl
        c2 ho.2 (fun t ht => hb t (List.mem_cons_of_mem _ (List.mem_cons_of_mem _ ht))) h'
      exact List.pairwise_cons.2 ⟨r2 (n + 1) (c4 n (hb t₀ List.mem_cons_self n hn)), r1⟩

/-- **C39** No slot is skipped that the consumer is there for: if slot `a` was received and later,
within slot `a + 1`, a call notices the timer (`lag` nanoseconds after the start of the slot at the
earliest, where `lag` is the time the calls take to set their timer), then `a + 1` is the next slot
received. -/
theorem C39_next_partial (g d k lag : Nat) (hd : 0 < d) (t₀ : CallTimes) (ts : List CallTimes)
    (st : SlotStream) (outs : List Polled) (h₀ : CallOrder 0 t₀) (ho : InOrder t₀.read ts)
    (hb : ∀ t ∈ t₀ :: ts, Brief g d t) (hl : ∀ t ∈ t₀ :: ts, t.armed ≤ t.measured + lag)
    (hc : (Clock.new g d k).into_stream t₀ = .ok st) (h : st.polls ts = .ok outs)
    (i j a : Nat) (t : CallTimes) (hij : i < j) (hi : outs[i]? = some (.ready (some a)))
    (hj : ts[j]? = some t) (hn : t.noticed = true)
    (h1 : slotStart g d (a + 1) * 10 ^ 9 + lag ≤ t.polled)
    (h2 : t.read < slotStart g d (a + 2) * 10 ^ 9) :
    ∃ m, i < m ∧ m ≤ j ∧ outs[m]? = some (.ready (some (a + 1))) ∧
      ∀ l, i < l → l < m → outs[l]? = some .pending := by
  obtain ⟨c1, c2, c4, c3⟩ := into_stream_inv hd h₀.2.2.1 hc
  rcases c3 with ⟨c3, -⟩ | ⟨n, c3, hn'⟩
  · exact polls_next hd ts st _ outs c1 c3 c2 ho (fun t ht => hb t (List.mem_cons_of_mem _ ht))
      (fun t ht => hl t (List.mem_cons_of_mem _ ht)) h i j a t hij hi hj hn h1 h2
  · cases ts with
    | nil => simp at hj
    | cons t₁ ts =>
      obtain ⟨rest, rfl, h'⟩ := first_poll c3 h
      obtain ⟨j, rfl⟩ : ∃ j', j = j' + 1 := ⟨j - 1, by omega⟩
      have hb' : ∀ t ∈ ts, Brief g d t :=
        fun t ht => hb t (List.mem_cons_of_mem _ (List.mem_cons_of_mem _ ht))
      have hl' : ∀ t ∈ ts, t.armed ≤ t.measured + lag :=
        fun t ht => hl t (List.mem_cons_of_mem _ (List.mem_cons_of_mem _ ht))
      cases i with
      | zero =>
        simp only [List.getElem?_cons_zero, Option.some.injEq, Polled.ready.injEq] at hi
        subst hi
        have hm := hb t₀ List.mem_cons_self n hn'
        have hdue := stream_due hd (hl t₀ List.mem_cons_self) hm hc
        obtain ⟨m, m1, m2, m3⟩ := polls_from hd ts { st with first_slot := none } _ rest c1 rfl
          c2 ho.2 hb' h' j n t lag (c4 n hm) hdue hj hn h1 h2
        refine ⟨m + 1, by omega, by omega, m2, fun l l1 l2 => ?_⟩
        obtain ⟨l, rfl⟩ : ∃ l', l = l' + 1 := ⟨l - 1, by omega⟩
        exact m3 l (by omega)
      | succ i =>
        obtain ⟨m, m1, m2, m3, m4⟩ := polls_next hd ts { st with first_slot := none } _ rest c1 rfl
          c2 ho.2 hb' hl' h' i j a t (by omega) hi hj hn h1 h2
        refine ⟨m + 1, by omega, by omega, m3, fun l l1 l2 => ?_⟩
        obtain ⟨l, rfl⟩ : ∃ l', l = l' + 1 := ⟨l - 1, by omega⟩
        exact m4 l (by omega) (by omega)

/-- **C39** No call panics until the year 2554. -/
theorem C39_no_panic (g d k : Nat) (hd : 0 < d) (hg : g * 10 ^ 9 < 2 ^ 64)
    (hd' : d * 10 ^ 9 < 2 ^ 64) (t₀ : CallTimes) (ts : List CallTimes)
    (ht : ∀ t ∈ t₀ :: ts, Horizon t) :
    ∃ st outs, (Clock.new g d k).into_stream t₀ = .ok st ∧ st.polls ts = .ok outs := by
  obtain ⟨δ, e1⟩ := until_next_total (k := k) hd hg hd' (ht t₀ List.mem_cons_self).2.1
  obtain ⟨o, e2⟩ := slot_at_total (g := g) (k := k) hd (ht t₀ List.mem_cons_self).2.2
  obtain ⟨outs, e3⟩ := polls_total hd hg hd' ts
    { delay := t₀.armed + δ, clock := Clock.new g d k, first_slot := o } rfl
    (fun t h => ht t (List.mem_cons_of_mem _ h))
  exact ⟨_, outs, by simp [Clock.into_stream, e1, e2], e3⟩

/-- A call that takes no time. -/
def instant (t : Nat) : CallTimes := ⟨t, t, t, t, true⟩

/-- A stream created before genesis (second 100, slots of 12 seconds) and polled at 99.9 s, 100 s,
105 s, 112.5 s, 124 s: not before genesis, then slot 0, not again in slot 0, then slots 1 and 2. -/
example : (do
      let st ← (Clock.new 100 12 8).into_stream (instant (10 ^ 9))
      st.polls ([99900, 100000, 105000, 112500, 124000].map fun ms => instant (ms * 10 ^ 6))
        : R _).toOption =
      some [.pending, .ready (some 0), .pending, .ready (some 1), .ready (some 2)] := by
  decide +kernel

/-- The same schedule meets the hypotheses of the theorems above. -/
example : InOrder (10 ^ 9)
      ([99900, 100000, 105000, 112500, 124000].map fun ms => instant (ms * 10 ^ 6)) ∧
    ∀ t, Brief 100 12 (instant t) :=
  ⟨by decide +kernel, fun _ _ h => h⟩

/-- **C39** The claim fails for late polls: a consumer that is away during slot 1 never receives
it. -/
theorem C39_skips : ∃ (t₀ : CallTimes) (ts : List CallTimes) (st : SlotStream),
    CallOrder 0 t₀ ∧ InOrder t₀.read ts ∧ (∀ t ∈ t₀ :: ts, Brief 100 12 t) ∧
    (Clock.new 100 12 8).into_stream t₀ = .ok st ∧
    st.polls ts = .ok [.ready (some 0), .ready (some 2)] :=
  ⟨instant (100 * 10 ^ 9), [instant (100 * 10 ^ 9), instant (124 * 10 ^ 9)],
    ⟨112 * 10 ^ 9, Clock.new 100 12 8, some 0⟩, by decide +kernel, by decide +kernel,
    by
      intro t ht
      simp only [List.mem_cons, List.not_mem_nil, or_false] at ht
      rcases ht with rfl | rfl | rfl <;> exact fun _ h => h,
    by rfl, by rfl⟩

/-- **C39** And it fails if a slot starts during a call: the stream is polled one nanosecond before
the start of slot 2 and reads the clock again one nanosecond later; it then yields slot 2, and
yields slot 2 once more. -/
theorem C39_repeats : ∃ (t₀ : CallTimes) (ts : List CallTimes) (st : SlotStream),
    CallOrder 0 t₀ ∧ InOrder t₀.read ts ∧ (Clock.new 100 12 8).into_stream t₀ = .ok st ∧
    st.polls ts = .ok [.ready (some 0), .ready (some 2), .ready (some 2)] :=
  ⟨instant (100 * 10 ^ 9), [instant (100 * 10 ^ 9),
      ⟨124 * 10 ^ 9 - 1, 124 * 10 ^ 9 - 1, 124 * 10 ^ 9 - 1, 124 * 10 ^ 9, true⟩,
      instant (124 * 10 ^ 9)],
    ⟨112 * 10 ^ 9, Clock.new 100 12 8, some 0⟩, by decide +kernel, by decide +kernel,
    by rfl, by rfl⟩

end Verif.Props
