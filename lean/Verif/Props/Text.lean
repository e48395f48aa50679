import Verif.Proofs.Text

/-! # C40, C41: text encodings -/

namespace Verif.Props

open Spec Text

/-! ## C40 -/

/-- **C40** What is written in hexadecimal is read back. -/
theorem C40_hex_roundtrip (b : List UInt8) :
    try_bytes_from_hex_str (write_bytes_to_lower_hex b) = some b :=
  hexDecode_write b

/-- **C40** What is written is `0x` and two digits for each byte, all lower-case. -/
theorem C40_hex_written (b : List UInt8) : ∃ t, write_bytes_to_lower_hex b = '0' :: 'x' :: t ∧
    HexText t b ∧ ∀ c ∈ t, c ∈ "0123456789abcdef".toList := by
  refine ⟨_, rfl, hexDecode_iff.1 (hexDecode_write b), ?_⟩
  intro c hc
  obtain ⟨x, -, hx⟩ := List.mem_flatMap.1 hc
  have : ∀ n, hexDigit n ∈ "0123456789abcdef".toList := by
    intro n; unfold hexDigit; split <;> decide +kernel
  simp only [List.mem_cons, List.not_mem_nil, or_false] at hx
  rcases hx with rfl | rfl <;> exact this _

/-- **C40** Exactly the texts that spell bytes, two digits of either case for each, with or without
`0x`, are accepted. -/
theorem C40_hex_iff (s : List Char) (b : List UInt8) : try_bytes_from_hex_str s = some b ↔
    HexText s b ∨ ∃ t, s = '0' :: 'x' :: t ∧ HexText t b :=
  try_bytes_iff

/-- **C40** So an odd number of digits is refused. -/
theorem C40_hex_odd (t : List Char) (h : t.length % 2 = 1) :
    try_bytes_from_hex_str ('0' :: 'x' :: t) = none := by
  cases h' : try_bytes_from_hex_str ('0' :: 'x' :: t) with
  | none => rfl
  | some b =>
    rcases try_bytes_iff.1 h' with h' | ⟨t', e, h'⟩
    · exact absurd h' not_hexText_prefix
    · cases e
      have := h'.1
      omega

/-- **C40** Fixed-size byte strings (keys, roots, addresses) are read back, and only text of their
size is accepted. -/
theorem C40_vector (n : Nat) (s : List Char) (b : List UInt8) :
    (b.length = n → as_hex_deserialize (isVector n) (write_bytes_to_lower_hex b) = some b) ∧
    (as_hex_deserialize (isVector n) s = some b ↔
      b.length = n ∧ (HexText s b ∨ ∃ t, s = '0' :: 'x' :: t ∧ HexText t b)) := by
  have key : ∀ s, as_hex_deserialize (isVector n) s = some b ↔
      b.length = n ∧ (HexText s b ∨ ∃ t, s = '0' :: 'x' :: t ∧ HexText t b) := by
    intro s
    rw [← try_bytes_iff]
    unfold as_hex_deserialize
    cases try_bytes_from_hex_str s with
    | none => simp
    | some x =>
      simp only [isVector, beq_iff_eq, Option.bind_eq_bind, Option.bind_some, Option.pure_def,
        Option.some.injEq]
      split
      · constructor
        · intro h; cases h; exact ⟨by assumption, rfl⟩
        · rintro ⟨-, rfl⟩; rfl
      · constructor
        · nofun
        · rintro ⟨h, rfl⟩; contradiction
  refine ⟨fun h => (key _).2 ⟨h, ?_⟩, key s⟩
  rw [← try_bytes_iff]
  exact C40_hex_roundtrip b

/-- **C40** And byte strings of bounded size (extra data, transactions). -/
theorem C40_list (n : Nat) (s : List Char) (b : List UInt8) :
    (b.length ≤ n → as_hex_deserialize (isList n) (write_bytes_to_lower_hex b) = some b) ∧
    (as_hex_deserialize (isList n) s = some b ↔
      b.length ≤ n ∧ (HexText s b ∨ ∃ t, s = '0' :: 'x' :: t ∧ HexText t b)) := by
  have key : ∀ s, as_hex_deserialize (isList n) s = some b ↔
      b.length ≤ n ∧ (HexText s b ∨ ∃ t, s = '0' :: 'x' :: t ∧ HexText t b) := by
    intro s
    rw [← try_bytes_iff]
    unfold as_hex_deserialize
    cases try_bytes_from_hex_str s with
    | none => simp
    | some x =>
      simp only [isList, decide_eq_true_eq, Option.bind_eq_bind, Option.bind_some, Option.pure_def,
        Option.some.injEq]
      split
      · constructor
        · intro h; cases h; exact ⟨by assumption, rfl⟩
        · rintro ⟨-, rfl⟩; rfl
      · constructor
        · nofun
        · rintro ⟨h, rfl⟩; contradiction
  refine ⟨fun h => (key _).2 ⟨h, ?_⟩, key s⟩
  rw [← try_bytes_iff]
  exact C40_hex_roundtrip b

/-- **C40** The abbreviation shown to people is never mistaken for data: it is refused as soon as
anything was left out. -/
theorem C40_abbreviation (b : List UInt8) :
    try_bytes_from_hex_str (write_bytes_to_lower_hex_display b) =
      if b.length < 4 then some b else none := by
  unfold write_bytes_to_lower_hex_display
  dsimp only
  by_cases h : 4 ≤ b.length
  · rw [if_pos h, if_neg (by omega)]
    obtain ⟨x, y, rest, rfl⟩ : ∃ x y rest, b = x :: y :: rest := by
      match b, h with
      | x :: y :: rest, _ => exact ⟨x, y, rest, rfl⟩
    show hexDecode (_ :: _ :: _ :: _ :: '…' :: write_hex_from_bytes _) = none
    have e : hexValue '…' = none := by decide +kernel
    have : ∀ t, hexDecode ('…' :: t) = none := by
      intro t
      cases t with
      | nil => rfl
      | cons c t => unfold hexDecode; rw [e]; rfl
    rw [hexDecode, hexDecode, this]
    simp
  · rw [if_neg h, if_pos (by omega)]
    exact hexDecode_write b

/-- **C40** Integers written in decimal are read back. -/
theorem C40_decimal_roundtrip (n : Nat) (h : n < 2 ^ 64) : parseU64 (decimal n) = some n :=
  parse_decimal h

/-- **C40** They are written with their digits, without leading zeros. -/
theorem C40_decimal_written (n : Nat) : (decimal n).map some =
    (if n = 0 then [0] else (Nat.digits 10 n).reverse).map ("0123456789".toList[·]?) :=
  decimal_digits n

/-- **C40** Exactly the texts that spell a 64-bit number are accepted, with an optional `+` and with
leading zeros. -/
theorem C40_decimal_iff (s : List Char) (n : Nat) : parseU64 s = some n ↔
    n < 2 ^ 64 ∧ (DecText s n ∨ ∃ t, s = '+' :: t ∧ DecText t n) :=
  parseU64_iff

/-- **C40** Sequences of integers are read back in order. -/
theorem C40_sequence (fits : List Nat → Bool) (data : List Nat) (h : ∀ n ∈ data, n < 2 ^ 64)
    (hf : fits data = true) :
    seq_of_str_deserialize fits (seq_of_str_serialize data) = some data := by
  have : (seq_of_str_serialize data).mapM parseU64 = some data := by
    unfold seq_of_str_serialize
    clear hf
    induction data with
    | nil => rfl
    | cons n ns ih =>
      rw [List.map_cons, List.mapM_cons, parse_decimal (h n List.mem_cons_self),
        ih fun m hm => h m (List.mem_cons_of_mem _ hm)]
      rfl
  unfold seq_of_str_deserialize
  rw [this]
  simp [hf]

/-- **C40** And one element that is not an integer makes the whole sequence unreadable. -/
theorem C40_sequence_iff (fits : List Nat → Bool) (elems : List (List Char)) (data : List Nat) :
    seq_of_str_deserialize fits elems = some data ↔
      elems.map parseU64 = data.map some ∧ fits data = true := by
  have key : elems.mapM parseU64 = some data ↔ elems.map parseU64 = data.map some := by
    induction elems generalizing data with
    | nil =>
      simp only [List.mapM_nil, Option.pure_def, Option.some.injEq, List.map_nil]
      cases data <;> simp
    | cons e es ih =>
      rw [List.mapM_cons]
      simp only [Option.bind_eq_bind, Option.bind_eq_some_iff, Option.pure_def, Option.some.injEq,
        List.map_cons]
      constructor
      · rintro ⟨n, hn, ns, hns, rfl⟩
        rw [List.map_cons, hn, (ih ns).1 hns]
      · intro h
        cases data with
        | nil => simp at h
        | cons n ns =>
          rw [List.map_cons, List.cons.injEq] at h
          exact ⟨n, h.1, ns, (ih ns).2 h.2, rfl⟩
  rw [← key]
  unfold seq_of_str_deserialize
  cases elems.mapM parseU64 with
  | none => simp
  | some x =>
    simp only [Option.bind_eq_bind, Option.bind_some, Option.pure_def, Option.some.injEq]
    split
    · constructor
      · intro h; cases h; exact ⟨rfl, by assumption⟩
      · rintro ⟨rfl, -⟩; rfl
    · constructor
      · nofun
      · rintro ⟨rfl, h⟩; contradiction

example : write_bytes_to_lower_hex [0, 1, 171, 255] = "0x0001abff".toList ∧
    try_bytes_from_hex_str "0x0001ABff".toList = some [0, 1, 171, 255] ∧
    try_bytes_from_hex_str "0001ABff".toList = some [0, 1, 171, 255] ∧
    try_bytes_from_hex_str "0x0x00".toList = none ∧
    try_bytes_from_hex_str "0X00".toList = none := by decide +kernel

example : decimal 18446744073709551615 = "18446744073709551615".toList ∧
    parseU64 "18446744073709551615".toList = some 18446744073709551615 ∧
    parseU64 "18446744073709551616".toList = none ∧ parseU64 "+007".toList = some 7 ∧
    parseU64 "-7".toList = none ∧ parseU64 "".toList = none := by decide +kernel

/-! ## C41 -/

theorem parse_hex (r : List UInt8) : parseU64 (write_bytes_to_lower_hex r) = none := by
  cases h : parseU64 (write_bytes_to_lower_hex r) with
  | none => rfl
  | some n =>
    rcases (parseU64_iff.1 h).2 with ⟨ds, h1, h2, -⟩ | ⟨t, h, -⟩
    · unfold write_bytes_to_lower_hex at h2
      match ds, h2 with
      | [], _ => exact absurd rfl h1
      | [_], h2 => simp at h2
      | _ :: e :: es, h2 =>
        simp only [List.map_cons, List.cons.injEq] at h2
        have := decValue_iff.2 h2.2.1.symm
        have : decValue 'x' = none := by decide +kernel
        simp_all
    · exact absurd (List.cons.inj h).1 (by decide)

/-- **C41** Nothing but the four keywords, 64-bit numbers and 32-byte roots is accepted, and each
means what it says; numbers take precedence over roots. -/
theorem C41_state_iff (s : List Char) (id : StateId) : StateId.from_str s = some id ↔
    (match id with
    | .Head => s = "head".toList
    | .Genesis => s = "genesis".toList
    | .Finalized => s = "finalized".toList
    | .Justified => s = "justified".toList
    | .Slot n => n < 2 ^ 64 ∧ (DecText s n ∨ ∃ t, s = '+' :: t ∧ DecText t n)
    | .Root r => r.length = 32 ∧ (HexText s r ∨ ∃ t, s = '0' :: 'x' :: t ∧ HexText t r) ∧
        parseU64 s = none) := by
  have kw : ∀ k ∈ ["finalized".toList, "justified".toList, "head".toList, "genesis".toList],
      parseU64 k = none ∧ try_bytes_from_hex_str k = none := by decide +kernel
  simp only [List.mem_cons, List.not_mem_nil, or_false, forall_eq_or_imp, forall_eq] at kw
  obtain ⟨⟨f1, f2⟩, ⟨j1, j2⟩, ⟨h1, h2⟩, ⟨g1, g2⟩⟩ := kw
  have ne : "finalized".toList ≠ "justified".toList ∧ "finalized".toList ≠ "head".toList ∧
      "finalized".toList ≠ "genesis".toList ∧ "justified".toList ≠ "head".toList ∧
      "justified".toList ≠ "genesis".toList ∧ "head".toList ≠ "genesis".toList := by decide +kernel
  obtain ⟨n1, n2, n3, n4, n5, n6⟩ := ne
  simp only [← parseU64_iff, ← try_bytes_iff]
  unfold StateId.from_str
  generalize "finalized".toList = F at *
  generalize "justified".toList = J at *
  generalize "head".toList = H at *
  generalize "genesis".toList = G at *
  split
  · rename_i e; subst e; cases id <;> simp_all
  · split
    · rename_i e; subst e; cases id <;> simp_all
    · split
      · rename_i e; subst e; cases id <;> simp_all
      · split
        · rename_i e; subst e; cases id <;> simp_all
        · rename_i a b c d
          split
          · rename_i e; cases id <;> simp_all
          · rename_i e
            split
            · rename_i r er
              split
              · rename_i hl
                cases id with
                | Root r' =>
                  simp only [Option.some.injEq, StateId.Root.injEq, e, er, and_true]
                  constructor
                  · rintro rfl; exact ⟨hl, rfl⟩
                  · exact fun h => h.2
                | _ => simp_all
              · rename_i hl
                cases id with
                | Root r' =>
                  simp only [e, er, and_true, Option.some.injEq]
                  constructor
                  · nofun
                  · rintro ⟨h, rfl⟩; exact absurd h hl
                | _ => simp_all
            · rename_i er; cases id <;> simp_all

/-- **C41** Every state identifier parses back from what it prints. -/
theorem C41_state_roundtrip (id : StateId) (h : ValidId id) :
    StateId.from_str id.display = some id := by
  rw [C41_state_iff]
  cases id with
  | Head => rfl
  | Genesis => rfl
  | Finalized => rfl
  | Justified => rfl
  | Slot n => exact ⟨h, Or.inl (decimal_text n)⟩
  | Root r =>
    exact ⟨h, Or.inr ⟨_, rfl, hexDecode_iff.1 (hexDecode_write r)⟩, parse_hex r⟩

/-- **C41** A root without `0x` is not always read as a root: one that starts with enough zeros and
has only decimal digits is read as a slot. -/
theorem C41_unprefixed_root_is_a_slot : ∃ r : List UInt8, r.length = 32 ∧
    ∃ n, StateId.from_str (write_hex_from_bytes r) = some (.Slot n) :=
  ⟨List.replicate 31 0 ++ [0x12], by decide, 12, by decide +kernel⟩

/-- **C41** Block identifiers (which are only printed) print as the state identifier that means the
same, so no two of them print alike. -/
theorem C41_block (id : BlockId) (h : ValidId (asState id)) :
    StateId.from_str id.display = some (asState id) := by
  have : id.display = (asState id).display := by cases id <;> rfl
  rw [this]
  exact C41_state_roundtrip _ h

theorem C41_block_injective (a b : BlockId) (ha : ValidId (asState a)) (hb : ValidId (asState b))
    (h : a.display = b.display) : a = b := by
  have h1 := C41_block a ha
  have h2 := C41_block b hb
  rw [h, h2] at h1
  have := Option.some.inj h1
  cases a <;> cases b <;> simp_all [asState]

/-- **C41** Nor do two validators, by key or by index. -/
theorem C41_validator_injective (a b : PublicKeyOrIndex)
    (ha : ∀ i, a = .Index i → i < 2 ^ 64) (hb : ∀ i, b = .Index i → i < 2 ^ 64)
    (h : a.display = b.display) : a = b := by
  cases a with
  | PublicKey k =>
    cases b with
    | PublicKey k' =>
      have h1 := C40_hex_roundtrip k
      have h2 := C40_hex_roundtrip k'
      dsimp only [PublicKeyOrIndex.display] at h
      rw [h, h2] at h1
      rw [Option.some.inj h1]
    | Index i =>
      dsimp only [PublicKeyOrIndex.display] at h
      have h1 := parse_hex k
      rw [h, parse_decimal (hb i rfl)] at h1
      cases h1
  | Index i =>
    cases b with
    | PublicKey k =>
      dsimp only [PublicKeyOrIndex.display] at h
      have h1 := parse_hex k
      rw [← h, parse_decimal (ha i rfl)] at h1
      cases h1
    | Index j =>
      dsimp only [PublicKeyOrIndex.display] at h
      have h1 := parse_decimal (ha i rfl)
      rw [h, parse_decimal (hb j rfl)] at h1
      rw [Option.some.inj h1]

theorem C41_status_injective (a b : ValidatorStatus) (h : a.display = b.display) : a = b := by
  cases a <;> cases b <;> first
    | rfl
    | exact absurd h (by decide +kernel)

/-- **C41** The names of the built-in networks are read back. -/
theorem C41_network (n : Network) (h : ∀ c, n ≠ .Custom c) : Network.ofString n.display = n := by
  cases n with
  | Custom c => exact absurd rfl (h c)
  | _ => decide +kernel

/-- **C41** Any other name is taken to be the directory of a custom configuration. -/
theorem C41_network_iff (s c : String) : Network.ofString s = .Custom c ↔
    s = c ∧ s ∉ ["mainnet", "sepolia", "goerli", "holesky", "hoodi"] := by
  unfold Network.ofString
  simp only [List.mem_cons, List.not_mem_nil, or_false, not_or]
  split
  · rename_i h; simp [h]
  · split
    · rename_i h; simp [h]
    · split
      · rename_i h; simp [h]
      · split
        · rename_i h; simp [h]
        · split
          · rename_i h; simp [h]
          · rename_i a b c' d e
            simp [a, b, c', d, e]

/-- **C41** But a custom network never is: its printed form names another directory. -/
theorem C41_custom_network (c : String) : Network.ofString (Network.display (.Custom c)) ≠ .Custom c := by
  intro h
  have := ((C41_network_iff _ _).1 h).1
  have hl := congrArg String.length this
  unfold Network.display at hl
  simp only [String.length_append] at hl
  have e : "custom (".length = 8 := by decide +kernel
  omega

example : ValidId (.Slot 8000000) ∧ ValidId (.Root (List.replicate 32 7)) ∧
    StateId.from_str "8000000".toList = some (.Slot 8000000) ∧
    StateId.from_str "first".toList = none ∧
    StateId.from_str "0x00".toList = none := by
  refine ⟨by unfold ValidId; decide, by unfold ValidId; decide, ?_⟩
  decide +kernel

end Verif.Props
