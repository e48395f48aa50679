import Verif.Spec.Clock
import Verif.Proofs.Wp

/-! # Proofs about the clock and the slot stream -/

namespace Verif

open Spec

@[simp, run] theorem U128_add_eq_ok {a b c : Nat} :
    U128.add a b = .ok c ↔ a + b = c ∧ a + b < U128_BOUND := by
  unfold U128.add; split <;> simp [*]

@[simp, run] theorem U128_sub_eq_ok {a b c : Nat} :
    U128.sub a b = .ok c ↔ a - b = c ∧ b ≤ a := by
  unfold U128.sub; split <;> simp [*]

@[simp, run] theorem U128_mul_eq_ok {a b c : Nat} :
    U128.mul a b = .ok c ↔ a * b = c ∧ a * b < U128_BOUND := by
  unfold U128.mul; split <;> simp [*]

@[simp, run] theorem U128_div_eq_ok {a b c : Nat} :
    U128.div a b = .ok c ↔ a / b = c ∧ b ≠ 0 := by
  unfold U128.div; split <;> simp [*]

@[simp, run] theorem u128_to_u64_eq_ok {a b : Nat} :
    u128_to_u64 a = .ok b ↔ a = b ∧ a < U64_BOUND := by
  unfold u128_to_u64; split <;> simp [*]

theorem slot_to_nanos_eq_ok {n d g t : Nat} :
    slot_to_nanos n d g = .ok t ↔ t = g + n * d ∧ n * d + g < U128_BOUND := by
  simp only [slot_to_nanos, R_bind_eq_ok, U128_mul_eq_ok, U128_add_eq_ok]
  constructor
  · rintro ⟨_, ⟨rfl, h1⟩, rfl, h2⟩; exact ⟨by omega, h2⟩
  · rintro ⟨rfl, h⟩; exact ⟨_, ⟨rfl, by omega⟩, by omega, h⟩

theorem div_eq_iff' {t d n : Nat} (hd : 0 < d) : t / d = n ↔ n * d ≤ t ∧ t < (n + 1) * d := by
  constructor
  · rintro rfl
    exact ⟨Nat.div_mul_le_self t d, by
      have := Nat.lt_succ_self (t / d)
      exact (Nat.div_lt_iff_lt_mul hd).1 this⟩
  · rintro ⟨h1, h2⟩
    exact Nat.le_antisymm (Nat.lt_succ_iff.1 ((Nat.div_lt_iff_lt_mul hd).2 h2))
      ((Nat.le_div_iff_mul_le hd).2 h1)

theorem nanos_to_slot_some {t g d n : Nat} (hd : 0 < d) :
    convert_timestamp_nanos_to_slot t g d = .ok (some n) ↔
      g + n * d ≤ t ∧ t < g + (n + 1) * d ∧ n < U64_BOUND := by
  unfold convert_timestamp_nanos_to_slot
  split
  · rename_i h
    simp only [R_bind_eq_ok, U128_div_eq_ok, u128_to_u64_eq_ok, R_pure]
    constructor
    · rintro ⟨_, ⟨rfl, -⟩, _, ⟨rfl, hb⟩, e⟩
      cases e
      have := (div_eq_iff' (t := t - g) hd).1 rfl
      exact ⟨by omega, by omega, hb⟩
    · rintro ⟨h1, h2, h3⟩
      have := (div_eq_iff' (t := t - g) (n := n) hd).2 ⟨by omega, by omega⟩
      exact ⟨_, ⟨rfl, by omega⟩, _, ⟨rfl, by omega⟩, by rw [this]⟩
  · rename_i h
    constructor
    · rintro e; cases e
    · rintro ⟨h1, -, -⟩
      exact absurd (Nat.le_trans (Nat.le_add_right _ _) h1) h

theorem nanos_to_slot_none {t g d : Nat} :
    convert_timestamp_nanos_to_slot t g d = .ok none ↔ t < g := by
  unfold convert_timestamp_nanos_to_slot
  split
  · simp only [R_bind_eq_ok, R_pure]
    constructor
    · rintro ⟨_, -, _, -, e⟩; cases e
    · intro; omega
  · exact ⟨fun _ => by omega, fun _ => rfl⟩

theorem NANOS_pos : 0 < NANOS := by unfold NANOS; omega

theorem slotStart_nanos (g d n : Nat) : slotStart g d n * 10 ^ 9 = g * NANOS + n * (d * NANOS) := by
  unfold slotStart NANOS; rw [Nat.add_mul, Nat.mul_assoc]

theorem slotStart_mono {g d m n : Nat} (h : m ≤ n) : slotStart g d m ≤ slotStart g d n := by
  unfold slotStart; have := Nat.mul_le_mul_right d h; omega

theorem inSlot_unique {g d m n t : Nat} (hm : InSlot g d m t) (hn : InSlot g d n t) : m = n := by
  rcases Nat.lt_trichotomy m n with h | h | h
  · have := slotStart_mono (g := g) (d := d) (show m + 1 ≤ n from h)
    unfold InSlot at *; omega
  · exact h
  · have := slotStart_mono (g := g) (d := d) (show n + 1 ≤ m from h)
    unfold InSlot at *; omega

theorem inSlot_le {g d m n t u : Nat} (hm : InSlot g d m t) (hn : InSlot g d n u) (h : t ≤ u) :
    m ≤ n := by
  rcases Nat.lt_or_ge n m with h' | h'
  · have := slotStart_mono (g := g) (d := d) (show n + 1 ≤ m from h')
    unfold InSlot at *; omega
  · exact h'

/-- a lower bound on the slot of an instant -/
theorem le_slot {g d m n t : Nat} (hm : slotStart g d m * 10 ^ 9 ≤ t) (hn : InSlot g d n t) :
    m ≤ n := by
  rcases Nat.lt_or_ge n m with h' | h'
  · have := slotStart_mono (g := g) (d := d) (show n + 1 ≤ m from h')
    unfold InSlot at *; omega
  · exact h'

theorem slot_at_some {g d k n t : Nat} (hd : 0 < d) :
    (Clock.new g d k).slot_at_time t = .ok (some n) ↔ InSlot g d n t ∧ n < 2 ^ 64 := by
  simp only [Clock.slot_at_time, Clock.new]
  rw [nanos_to_slot_some (Nat.mul_pos hd NANOS_pos)]
  unfold InSlot
  rw [slotStart_nanos, slotStart_nanos, and_assoc]
  simp only [U64_BOUND]

theorem slot_at_none {g d k t : Nat} :
    (Clock.new g d k).slot_at_time t = .ok none ↔ t < g * 10 ^ 9 := by
  simp only [Clock.slot_at_time, Clock.new]
  rw [nanos_to_slot_none]
  simp only [NANOS]

theorem before_iff {g d k t : Nat} :
    (Clock.new g d k).before_genesis_at t = true ↔ t < g * NANOS := by
  simp only [Clock.before_genesis_at, Clock.new]
  exact decide_eq_true_iff

/-- what the next-slot duration is -/
theorem until_next {g d k t δ : Nat} (hd : 0 < d)
    (h : (Clock.new g d k).duration_until_next_slot t = .ok δ) :
    t < g * 10 ^ 9 ∧ t + δ = slotStart g d 0 * 10 ^ 9 ∨
    ∃ n, InSlot g d n t ∧ t + δ = slotStart g d (n + 1) * 10 ^ 9 := by
  unfold Clock.duration_until_next_slot at h
  split at h
  · rename_i hb
    have hb : t < g * NANOS := before_iff.1 hb
    simp only [R_bind_eq_ok, U128_sub_eq_ok, u128_to_u64_eq_ok] at h
    obtain ⟨_, ⟨rfl, -⟩, rfl, -⟩ := h
    refine .inl ⟨hb, ?_⟩
    simp only [Clock.new, slotStart, NANOS] at *; omega
  · rw [R_bind_eq_ok] at h
    obtain ⟨o, ho, h⟩ := h
    cases o with
    | none => cases h
    | some n =>
      obtain ⟨hn, -⟩ := (slot_at_some hd).1 ho
      simp only [R_bind_eq_ok, add_eq_ok, U128_sub_eq_ok, u128_to_u64_eq_ok,
        slot_to_nanos_eq_ok] at h
      obtain ⟨_, ⟨rfl, -⟩, _, ⟨rfl, -⟩, _, ⟨rfl, hle⟩, rfl, -⟩ := h
      refine .inr ⟨n, hn, ?_⟩
      rw [slotStart_nanos]
      simp only [Clock.new] at *; omega

theorem nanos_to_slot_total {t g d : Nat} (hd : 10 ^ 9 ≤ d) (ht : t < 2 ^ 64) :
    ∃ o, convert_timestamp_nanos_to_slot t g d = .ok o := by
  have hD : 0 < d := by omega
  rcases Nat.lt_or_ge t g with h | h
  · exact ⟨none, nanos_to_slot_none.2 h⟩
  · obtain ⟨h1, h2⟩ := (div_eq_iff' (t := t - g) hD).1 rfl
    generalize (t - g) / d = n at *
    have hn : n * 1 ≤ n * d := Nat.mul_le_mul_left n hD
    exact ⟨some n, (nanos_to_slot_some hD).2 ⟨by omega, by omega, by rw [U64_BOUND_eq]; omega⟩⟩

/-- the next-slot duration exists until 2554 -/
theorem until_next_total' {c : Clock} {t : Nat} (hg : c.genesis_time < 2 ^ 64)
    (hd : 10 ^ 9 ≤ c.seconds_per_slot) (hd' : c.seconds_per_slot < 2 ^ 64) (ht : t < 2 ^ 64) :
    ∃ δ, c.duration_until_next_slot t = .ok δ := by
  unfold Clock.duration_until_next_slot Clock.slot_at_time Clock.before_genesis_at
  generalize c.genesis_time = G at *
  generalize c.seconds_per_slot = D at *
  have hD : 0 < D := by omega
  split
  · rename_i hb
    have hb := of_decide_eq_true hb
    refine ⟨G - t, ?_⟩
    simp only [R_bind_eq_ok, U128_sub_eq_ok, u128_to_u64_eq_ok]
    exact ⟨_, ⟨rfl, by omega⟩, rfl, by rw [U64_BOUND_eq]; omega⟩
  · rename_i hb
    have hb : ¬ t < G := fun h => hb (decide_eq_true h)
    obtain ⟨o, ho⟩ := nanos_to_slot_total (g := G) hd ht
    cases o with
    | none => exact absurd (nanos_to_slot_none.1 ho) hb
    | some n =>
      obtain ⟨h1, h2, h3⟩ := (nanos_to_slot_some hD).1 ho
      have h4 : (n + 1) * D = n * D + D := by rw [Nat.add_mul, Nat.one_mul]
      have hn : n * 10 ^ 9 ≤ n * D := Nat.mul_le_mul_left n hd
      have hB : U128_BOUND = 340282366920938463463374607431768211456 := by decide
      generalize hx : (n + 1) * D = x at *
      have e1 : n +? 1 = .ok (n + 1) := add_eq_ok.2 ⟨rfl, by rw [U64_BOUND_eq]; omega⟩
      have e2 : slot_to_nanos (n + 1) D G = .ok (G + x) :=
        slot_to_nanos_eq_ok.2 ⟨by rw [hx], by rw [hx, hB]; omega⟩
      have e3 : U128.sub (G + x) t = .ok (G + x - t) := U128_sub_eq_ok.2 ⟨rfl, by omega⟩
      have e4 : u128_to_u64 (G + x - t) = .ok (G + x - t) :=
        u128_to_u64_eq_ok.2 ⟨rfl, by rw [U64_BOUND_eq]; omega⟩
      exact ⟨G + x - t, by simp only [ho, R_bind_ok, e1, e2, e3, e4]⟩

theorem until_next_total {g d k t : Nat} (hd : 0 < d) (hg : g * 10 ^ 9 < 2 ^ 64)
    (hd' : d * 10 ^ 9 < 2 ^ 64) (ht : t < 2 ^ 64) :
    ∃ δ, (Clock.new g d k).duration_until_next_slot t = .ok δ := by
  have hN : NANOS = 1000000000 := by decide
  refine until_next_total' ?_ ?_ ?_ ht <;> simp only [Clock.new] <;> rw [hN]
  · exact hg
  · exact Nat.le_mul_of_pos_left _ hd
  · exact hd'

theorem slot_at_total {g d k t : Nat} (hd : 0 < d) (ht : t < 2 ^ 64) :
    ∃ o, (Clock.new g d k).slot_at_time t = .ok o := by
  have hN : NANOS = 1000000000 := by decide
  refine nanos_to_slot_total ?_ ht
  simp only [Clock.new]
  rw [hN]
  exact Nat.le_mul_of_pos_left _ hd

/-! ## The stream -/

/-- the timer of a stream is due no earlier than `n` starts -/
def DueAfter (g d : Nat) (st : SlotStream) (n : Nat) : Prop := slotStart g d n * 10 ^ 9 ≤ st.delay

theorem armed_due {g d k n δ : Nat} {t : CallTimes} (hd : 0 < d) (ho : t.measured ≤ t.armed)
    (h : (Clock.new g d k).duration_until_next_slot t.measured = .ok δ)
    (hn : InSlot g d n t.measured) : slotStart g d (n + 1) * 10 ^ 9 ≤ t.armed + δ := by
  rcases until_next hd h with ⟨h1, -⟩ | ⟨m, hm, h2⟩
  · have := slotStart_mono (g := g) (d := d) (Nat.zero_le n)
    unfold InSlot slotStart at *; omega
  · cases inSlot_unique hn hm; omega

theorem armed_genesis {g d k δ : Nat} {t : CallTimes} (hd : 0 < d) (ho : t.measured ≤ t.armed)
    (h : (Clock.new g d k).duration_until_next_slot t.measured = .ok δ) :
    slotStart g d 0 * 10 ^ 9 ≤ t.armed + δ := by
  rcases until_next hd h with ⟨h1, h2⟩ | ⟨m, hm, h2⟩
  · omega
  · have := slotStart_mono (g := g) (d := d) (Nat.zero_le (m + 1)); omega

/-- What a poll does, once the first slot has been taken. -/
theorem poll_inv {g d k : Nat} {st st' : SlotStream} {t : CallTimes} {r : Polled} {now : Nat}
    (hd : 0 < d) (hc : st.clock = Clock.new g d k) (hf : st.first_slot = none)
    (hg : DueAfter g d st 0) (ho : CallOrder now t) (h : st.poll_next t = .ok (r, st')) :
    st'.clock = Clock.new g d k ∧ st'.first_slot = none ∧
      (r = .pending ∧ st' = st ∧ ¬ (st.delay ≤ t.polled ∧ t.noticed = true) ∨
       ∃ n, r = .ready (some n) ∧ InSlot g d n t.read ∧ st.delay ≤ t.polled ∧
        t.noticed = true ∧ DueAfter g d st' 0 ∧
        (∀ m, InSlot g d m t.measured → DueAfter g d st' (m + 1)) ∧
        ∃ m, InSlot g d m t.measured ∧
          st'.delay + t.measured = slotStart g d (m + 1) * 10 ^ 9 + t.armed) := by
  obtain ⟨o1, o2, o3, o4⟩ := ho
  unfold SlotStream.poll_next at h
  rw [hf] at h
  dsimp only at h
  split at h
  · rename_i hr
    simp only [Bool.and_eq_true, decide_eq_true_eq] at hr
    simp only [R_bind_eq_ok, R_pure, hc] at h
    obtain ⟨δ, hδ, o, hs, e⟩ := h
    cases e
    refine ⟨rfl, rfl, .inr ?_⟩
    cases o with
    | none =>
      rw [slot_at_none] at hs
      exfalso; unfold DueAfter slotStart at hg; omega
    | some n =>
      refine ⟨n, rfl, ((slot_at_some hd).1 hs).1, hr.1, hr.2, armed_genesis hd o3 hδ,
        fun m hm => armed_due hd o3 hδ hm, ?_⟩
      rcases until_next hd hδ with ⟨h1, -⟩ | ⟨m, hm, h2⟩
      · exfalso; unfold DueAfter slotStart at hg; omega
      · exact ⟨m, hm, by show t.armed + δ + t.measured = _; omega⟩
  · rename_i hr
    simp only [Bool.and_eq_true, decide_eq_true_eq] at hr
    cases h
    exact ⟨hc, hf, .inl ⟨rfl, rfl, hr⟩⟩

theorem polls_cons {st : SlotStream} {t : CallTimes} {ts : List CallTimes} {outs : List Polled} :
    st.polls (t :: ts) = .ok outs ↔ ∃ r st' rest, st.poll_next t = .ok (r, st') ∧
      st'.polls ts = .ok rest ∧ outs = r :: rest := by
  simp only [SlotStream.polls, R_bind_eq_ok, R_pure]
  constructor
  · rintro ⟨⟨r, st'⟩, h1, rest, h2, e⟩
    cases e; exact ⟨r, st', rest, h1, h2, rfl⟩
  · rintro ⟨r, st', rest, h1, h2, rfl⟩
    exact ⟨(r, st'), h1, rest, h2, rfl⟩

/-- every result of a stream whose first slot is taken -/
theorem polls_current {g d k : Nat} (hd : 0 < d) : ∀ (ts : List CallTimes) (st : SlotStream)
    (now : Nat) (outs : List Polled), st.clock = Clock.new g d k → st.first_slot = none →
    DueAfter g d st 0 → InOrder now ts → st.polls ts = .ok outs →
    ∀ (i : Nat) t x, ts[i]? = some t → outs[i]? = some (.ready x) →
      ∃ n, x = some n ∧ InSlot g d n t.read
  | [], _, _, _, _, _, _, _, _ => by simp
  | t :: ts, st, now, outs, hc, hf, hg, ho, h => by
    obtain ⟨r, st', rest, h1, h2, rfl⟩ := polls_cons.1 h
    obtain ⟨hc', hf', hr⟩ := poll_inv hd hc hf hg ho.1 h1
    have hg' : DueAfter g d st' 0 := by
      rcases hr with ⟨-, rfl, -⟩ | ⟨_, -, -, -, -, hg', -⟩ <;> assumption
    intro i t' x hi hx
    cases i with
    | zero =>
      simp only [List.getElem?_cons_zero, Option.some.injEq] at hi hx
      subst hi hx
      rcases hr with ⟨e, -⟩ | ⟨n, e, hn, -⟩
      · cases e
      · cases e; exact ⟨n, rfl, hn⟩
    | succ i =>
      exact polls_current hd ts st' t.read rest hc' hf' hg' ho.2 h2 i t' x hi hx

/-- the slots received never go back -/
theorem polls_sorted {g d k : Nat} (hd : 0 < d) : ∀ (ts : List CallTimes) (st : SlotStream)
    (now : Nat) (outs : List Polled), st.clock = Clock.new g d k → st.first_slot = none →
    DueAfter g d st 0 → InOrder now ts → st.polls ts = .ok outs →
    (received outs).Pairwise (· ≤ ·) ∧ ∀ m, slotStart g d m * 10 ^ 9 ≤ now →
      ∀ n ∈ received outs, m ≤ n
  | [], _, _, _, _, _, _, _, h => by
    cases h; exact ⟨.nil, fun _ _ _ hn => absurd hn (by simp [received])⟩
  | t :: ts, st, now, outs, hc, hf, hg, ho, h => by
    obtain ⟨r, st', rest, h1, h2, rfl⟩ := polls_cons.1 h
    obtain ⟨hc', hf', hr⟩ := poll_inv hd hc hf hg ho.1 h1
    have hg' : DueAfter g d st' 0 := by
      rcases hr with ⟨-, rfl, -⟩ | ⟨_, -, -, -, -, hg', -⟩ <;> assumption
    obtain ⟨ih1, ih2⟩ := polls_sorted hd ts st' t.read rest hc' hf' hg' ho.2 h2
    have hle : now ≤ t.read := by have := ho.1; unfold CallOrder at this; omega
    rcases hr with ⟨rfl, -⟩ | ⟨n, rfl, hn, -⟩
    · exact ⟨ih1, fun m hm => ih2 m (Nat.le_trans hm hle)⟩
    · refine ⟨List.pairwise_cons.2 ⟨ih2 n hn.1, ih1⟩, fun m hm n' hn' => ?_⟩
      rcases List.mem_cons.1 hn' with rfl | hn'
      · exact le_slot (Nat.le_trans hm hle) hn
      · exact ih2 m (Nat.le_trans hm hle) n' hn'

/-- the slots received grow, if no slot starts within a call -/
theorem polls_strict {g d k : Nat} (hd : 0 < d) : ∀ (ts : List CallTimes) (st : SlotStream)
    (now : Nat) (outs : List Polled), st.clock = Clock.new g d k → st.first_slot = none →
    DueAfter g d st 0 → InOrder now ts → (∀ t ∈ ts, Brief g d t) → st.polls ts = .ok outs →
    (received outs).Pairwise (· < ·) ∧ ∀ m, DueAfter g d st m → ∀ n ∈ received outs, m ≤ n
  | [], _, _, _, _, _, _, _, _, h => by
    cases h; exact ⟨.nil, fun _ _ _ hn => absurd hn (by simp [received])⟩
  | t :: ts, st, now, outs, hc, hf, hg, ho, hb, h => by
    obtain ⟨r, st', rest, h1, h2, rfl⟩ := polls_cons.1 h
    obtain ⟨hc', hf', hr⟩ := poll_inv hd hc hf hg ho.1 h1
    have hg' : DueAfter g d st' 0 := by
      rcases hr with ⟨-, rfl, -⟩ | ⟨_, -, -, -, -, hg', -⟩ <;> assumption
    obtain ⟨ih1, ih2⟩ := polls_strict hd ts st' t.read rest hc' hf' hg' ho.2
      (fun t ht => hb t (List.mem_cons_of_mem _ ht)) h2
    rcases hr with ⟨rfl, rfl, -⟩ | ⟨n, rfl, hn, hdue, -, -, hm, -⟩
    · exact ⟨ih1, ih2⟩
    · have hn' := hm n (hb t List.mem_cons_self n hn)
      have hlt := ih2 (n + 1) hn'
      refine ⟨List.pairwise_cons.2 ⟨hlt, ih1⟩, fun m hm n' hn' => ?_⟩
      have hmn : m ≤ n := by
        have := ho.1; unfold CallOrder at this; unfold DueAfter at hm
        exact le_slot (t := t.read) (by omega) hn
      rcases List.mem_cons.1 hn' with rfl | hn'
      · exact hmn
      · have := hlt n' hn'; omega

/-- the stream as created -/
theorem into_stream_inv {g d k : Nat} {st : SlotStream} {t : CallTimes} (hd : 0 < d)
    (ho : t.measured ≤ t.armed) (h : (Clock.new g d k).into_stream t = .ok st) :
    st.clock = Clock.new g d k ∧ DueAfter g d st 0 ∧
      (∀ m, InSlot g d m t.measured → DueAfter g d st (m + 1)) ∧
      (st.first_slot = none ∧ t.read < g * 10 ^ 9 ∨
       ∃ n, st.first_slot = some n ∧ InSlot g d n t.read) := by
  simp only [Clock.into_stream, R_bind_eq_ok, R_pure] at h
  obtain ⟨δ, hδ, o, hs, e⟩ := h
  cases e
  refine ⟨rfl, armed_genesis hd ho hδ, fun m hm => armed_due hd ho hδ hm, ?_⟩
  cases o with
  | none => exact .inl ⟨rfl, slot_at_none.1 hs⟩
  | some n => exact .inr ⟨n, rfl, ((slot_at_some hd).1 hs).1⟩

theorem first_poll {st : SlotStream} {n : Nat} {t : CallTimes} {ts : List CallTimes}
    {outs : List Polled} (hf : st.first_slot = some n) (h : st.polls (t :: ts) = .ok outs) :
    ∃ rest, outs = .ready (some n) :: rest ∧
      ({ st with first_slot := none } : SlotStream).polls ts = .ok rest := by
  obtain ⟨r, st', rest, h1, h2, rfl⟩ := polls_cons.1 h
  unfold SlotStream.poll_next at h1
  rw [hf] at h1
  cases h1
  exact ⟨rest, rfl, h2⟩

/-- when the timer of a new stream is due -/
theorem stream_due {g d k n lag : Nat} {st : SlotStream} {t : CallTimes} (hd : 0 < d)
    (hl : t.armed ≤ t.measured + lag) (hn : InSlot g d n t.measured)
    (h : (Clock.new g d k).into_stream t = .ok st) :
    st.delay ≤ slotStart g d (n + 1) * 10 ^ 9 + lag := by
  simp only [Clock.into_stream, R_bind_eq_ok, R_pure] at h
  obtain ⟨δ, hδ, o, -, e⟩ := h
  cases e
  rcases until_next hd hδ with ⟨h1, -⟩ | ⟨m, hm, h2⟩
  · have := slotStart_mono (g := g) (d := d) (Nat.zero_le n)
    unfold InSlot slotStart at *; omega
  · cases inSlot_unique hn hm
    show t.armed + δ ≤ _
    omega

theorem inOrder_read {now : Nat} : ∀ {ts : List CallTimes} {j : Nat} {t : CallTimes},
    InOrder now ts → ts[j]? = some t → now ≤ t.read
  | [], _, _, _, h => by simp at h
  | t' :: ts, 0, t, ho, h => by
    cases h; have := ho.1; unfold CallOrder at this; omega
  | t' :: ts, j + 1, t, ho, h => by
    have h1 := inOrder_read (j := j) ho.2 h
    have := ho.1; unfold CallOrder at this; omega

/-- the next item of a stream whose timer is due at the start of slot `a + 1` -/
theorem polls_from {g d k : Nat} (hd : 0 < d) : ∀ (ts : List CallTimes) (st : SlotStream)
    (now : Nat) (outs : List Polled), st.clock = Clock.new g d k → st.first_slot = none →
    DueAfter g d st 0 → InOrder now ts → (∀ t ∈ ts, Brief g d t) → st.polls ts = .ok outs →
    ∀ (j a : Nat) (t : CallTimes) (lag : Nat), DueAfter g d st (a + 1) →
      st.delay ≤ slotStart g d (a + 1) * 10 ^ 9 + lag → ts[j]? = some t → t.noticed = true →
      slotStart g d (a + 1) * 10 ^ 9 + lag ≤ t.polled → t.read < slotStart g d (a + 2) * 10 ^ 9 →
      ∃ m, m ≤ j ∧ outs[m]? = some (.ready (some (a + 1))) ∧ ∀ l < m, outs[l]? = some .pending
  | [], _, _, _, _, _, _, _, _, _ => by simp
  | t' :: ts, st, now, outs, hc, hf, hg, ho, hb, h => by
    intro j a t lag hd1 hd2 hj hn h1 h2
    obtain ⟨r, st', rest, e1, e2, rfl⟩ := polls_cons.1 h
    obtain ⟨hc', hf', hr⟩ := poll_inv hd hc hf hg ho.1 e1
    rcases hr with ⟨rfl, rfl, hp⟩ | ⟨n, rfl, hn', hdue, -⟩
    · cases j with
      | zero => cases hj; exact absurd ⟨by omega, hn⟩ hp
      | succ j =>
        obtain ⟨m, m1, m2, m3⟩ := polls_from hd ts st' t'.read rest hc' hf' hg ho.2
          (fun t ht => hb t (List.mem_cons_of_mem _ ht)) e2 j a t lag hd1 hd2 hj hn h1 h2
        refine ⟨m + 1, by omega, m2, fun l hl => ?_⟩
        cases l with
        | zero => rfl
        | succ l => exact m3 l (by omega)
    · refine ⟨0, Nat.zero_le _, ?_, fun l hl => absurd hl (Nat.not_lt_zero l)⟩
      have hle : t'.read ≤ t.read := by
        cases j with
        | zero => cases hj; exact Nat.le_refl _
        | succ j => exact inOrder_read (j := j) ho.2 hj
      have ho1 := ho.1
      unfold CallOrder at ho1
      unfold DueAfter at hd1
      have h5 : st.delay ≤ t'.read := by omega
      have h3 : a + 1 ≤ n := le_slot (Nat.le_trans hd1 h5) hn'
      have h4 : n < a + 2 := by
        rcases Nat.lt_or_ge n (a + 2) with h | h
        · exact h
        · have := slotStart_mono (g := g) (d := d) h
          unfold InSlot at hn'; omega
      cases (show n = a + 1 by omega)
      rfl

theorem polls_next {g d k lag : Nat} (hd : 0 < d) : ∀ (ts : List CallTimes) (st : SlotStream)
    (now : Nat) (outs : List Polled), st.clock = Clock.new g d k → st.first_slot = none →
    DueAfter g d st 0 → InOrder now ts → (∀ t ∈ ts, Brief g d t) →
    (∀ t ∈ ts, t.armed ≤ t.measured + lag) → st.polls ts = .ok outs →
    ∀ (i j a : Nat) (t : CallTimes), i < j → outs[i]? = some (.ready (some a)) →
      ts[j]? = some t → t.noticed = true →
      slotStart g d (a + 1) * 10 ^ 9 + lag ≤ t.polled → t.read < slotStart g d (a + 2) * 10 ^ 9 →
      ∃ m, i < m ∧ m ≤ j ∧ outs[m]? = some (.ready (some (a + 1))) ∧
        ∀ l, i < l → l < m → outs[l]? = some .pending
  | [], _, _, _, _, _, _, _, _, _, _ => by simp
  | t' :: ts, st, now, outs, hc, hf, hg, ho, hb, hl, h => by
    intro i j a t hij hi hj hn h1 h2
    obtain ⟨r, st', rest, e1, e2, rfl⟩ := polls_cons.1 h
    obtain ⟨hc', hf', hr⟩ := poll_inv hd hc hf hg ho.1 e1
    have hg' : DueAfter g d st' 0 := by
      rcases hr with ⟨-, rfl, -⟩ | ⟨_, -, -, -, -, hg', -⟩ <;> assumption
    obtain ⟨j, rfl⟩ : ∃ j', j = j' + 1 := ⟨j - 1, by omega⟩
    have hb' : ∀ t ∈ ts, Brief g d t := fun t ht => hb t (List.mem_cons_of_mem _ ht)
    cases i with
    | zero =>
      simp only [List.getElem?_cons_zero, Option.some.injEq] at hi
      subst hi
      rcases hr with ⟨e, -⟩ | ⟨n, e, hn', -, -, -, hm, m', hm', hdel⟩
      · cases e
      · cases e
        have hma := hb t' List.mem_cons_self a hn'
        cases inSlot_unique hma hm'
        obtain ⟨m, m1, m2, m3⟩ := polls_from hd ts st' t'.read rest hc' hf' hg' ho.2 hb' e2 j a t
          lag (hm a hma) (by have := hl t' List.mem_cons_self; omega) hj hn h1 h2
        refine ⟨m + 1, by omega, by omega, m2, fun l l1 l2 => ?_⟩
        obtain ⟨l, rfl⟩ : ∃ l', l = l' + 1 := ⟨l - 1, by omega⟩
        exact m3 l (by omega)
    | succ i =>
      obtain ⟨m, m1, m2, m3, m4⟩ := polls_next hd ts st' t'.read rest hc' hf' hg' ho.2 hb'
        (fun t ht => hl t (List.mem_cons_of_mem _ ht)) e2 i j a t (by omega) hi hj hn h1 h2
      refine ⟨m + 1, by omega, by omega, m3, fun l l1 l2 => ?_⟩
      obtain ⟨l, rfl⟩ : ∃ l', l = l' + 1 := ⟨l - 1, by omega⟩
      exact m4 l (by omega) (by omega)

theorem polls_total {g d k : Nat} (hd : 0 < d) (hg : g * 10 ^ 9 < 2 ^ 64)
    (hd' : d * 10 ^ 9 < 2 ^ 64) : ∀ (ts : List CallTimes) (st : SlotStream),
    st.clock = Clock.new g d k → (∀ t ∈ ts, Horizon t) → ∃ outs, st.polls ts = .ok outs
  | [], _, _, _ => ⟨[], rfl⟩
  | t :: ts, st, hc, ht => by
    obtain ⟨δ, e1⟩ := until_next_total (k := k) hd hg hd' (ht t List.mem_cons_self).2.1
    obtain ⟨o, e2⟩ := slot_at_total (g := g) (k := k) hd (ht t List.mem_cons_self).2.2
    have : ∃ r st', st.poll_next t = .ok (r, st') ∧ st'.clock = Clock.new g d k := by
      unfold SlotStream.poll_next
      split
      · exact ⟨_, _, rfl, hc⟩
      · split
        · rw [hc, e1, e2]; exact ⟨_, _, rfl, rfl⟩
        · exact ⟨_, _, rfl, hc⟩
    obtain ⟨r, st', h1, h2⟩ := this
    obtain ⟨outs, h3⟩ := polls_total hd hg hd' ts st' h2 (fun t h => ht t (List.mem_cons_of_mem _ h))
    exact ⟨r :: outs, polls_cons.2 ⟨r, st', outs, h1, h3, rfl⟩⟩

end Verif
