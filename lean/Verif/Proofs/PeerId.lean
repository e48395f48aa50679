import Mathlib.Data.Nat.Digits.Lemmas
import Verif.Spec.PeerId

/-! # Base 58, variable-length integers and peer ids -/

namespace Verif.Net

/-! ## Digits -/

theorem takeWhile_zeros (z : Nat) (l : List Nat) (hl : ∀ d ∈ l.head?, d ≠ 0) :
    ((List.replicate z 0 ++ l).takeWhile (· == 0)).length = z := by
  induction z with
  | zero =>
    cases l with
    | nil => rfl
    | cons d l => simp [hl d rfl]
  | succ z ih =>
    simp only [List.replicate_succ, List.cons_append, List.takeWhile_cons, beq_self_eq_true, if_true,
      List.length_cons, ih]

theorem fromDigits_zeros (b z : Nat) (l : List Nat) :
    fromDigits b (List.replicate z 0 ++ l) = fromDigits b l := by
  unfold fromDigits
  rw [List.reverse_append, List.reverse_replicate, Nat.ofDigits_append]
  have : Nat.ofDigits b (List.replicate z 0) = 0 := by
    induction z with
    | zero => rfl
    | succ z ih => simp [List.replicate_succ, Nat.ofDigits_cons, ih]
  rw [this]; simp

theorem toDigits_fromDigits {b : Nat} (hb : 1 < b) {l : List Nat} (h1 : ∀ d ∈ l, d < b)
    (h2 : ∀ d ∈ l.head?, d ≠ 0) : toDigits b (fromDigits b l) = l := by
  unfold toDigits fromDigits
  rw [Nat.digits_ofDigits b hb _ (by simpa using h1), List.reverse_reverse]
  intro h
  simp only [List.getLast_reverse]
  exact h2 _ (List.head?_eq_some_head _)

theorem fromDigits_toDigits (b n : Nat) : fromDigits b (toDigits b n) = n := by
  simp [toDigits, fromDigits, Nat.ofDigits_digits]

theorem toDigits_lt {b : Nat} (hb : 1 < b) (n : Nat) : ∀ d ∈ toDigits b n, d < b := by
  intro d hd
  exact Nat.digits_lt_base hb (by simpa [toDigits] using hd)

theorem toDigits_head {b : Nat} (n : Nat) : ∀ d ∈ (toDigits b n).head?, d ≠ 0 := by
  intro d hd
  unfold toDigits at hd
  rw [List.head?_reverse] at hd
  have hne : Nat.digits b n ≠ [] := by
    intro h; simp [h] at hd
  rw [List.getLast?_eq_some_getLast hne] at hd
  cases hd
  apply Nat.getLast_digit_ne_zero
  rintro rfl
  exact hne (Nat.digits_zero b)

/-- A list is its leading zeros and what follows, which does not begin with a zero. -/
theorem zeros_split (l : List Nat) : ∃ z rest, l = List.replicate z 0 ++ rest ∧
    ∀ d ∈ rest.head?, d ≠ 0 := by
  induction l with
  | nil => exact ⟨0, [], rfl, by simp⟩
  | cons d l ih =>
    by_cases h : d = 0
    · obtain ⟨z, rest, e, hr⟩ := ih
      exact ⟨z + 1, rest, by rw [List.replicate_succ, h, e]; rfl, hr⟩
    · exact ⟨0, d :: l, rfl, by simpa using h⟩

/-! ## Base 58 -/

theorem b58Value_digit {d : Nat} (h : d < 58) : b58Value (b58Digit d) = some d := by
  have : ∀ d : Fin 58, b58Value (b58Digit d.val) = some d.val := by decide +kernel
  exact this ⟨d, h⟩

theorem b58Digit_mem (d : Nat) : b58Digit d ∈ alphabet := by
  unfold b58Digit
  rw [List.getD_eq_getElem?_getD]
  cases h : alphabet[d]? with
  | none => decide +kernel
  | some c => exact List.mem_of_getElem? h

theorem mapM_values {ds : List Nat} (h : ∀ d ∈ ds, d < 58) :
    (ds.map b58Digit).mapM b58Value = some ds := by
  induction ds with
  | nil => rfl
  | cons d ds ih =>
    rw [List.map_cons, List.mapM_cons, b58Value_digit (h d (by simp)),
      ih fun x hx => h x (by simp [hx])]
    rfl

theorem takeWhile_map (data : List UInt8) : (data.takeWhile (· == 0)).length =
    ((data.map UInt8.toNat).takeWhile (· == 0)).length := by
  induction data with
  | nil => rfl
  | cons b data ih =>
    have : (b == 0) = (b.toNat == 0) := by
      rw [Bool.eq_iff_iff]; simp [← UInt8.toNat_inj]
    simp only [List.map_cons, List.takeWhile_cons, this]
    split <;> simp [ih]

theorem map_ofNat_toNat (data : List UInt8) : (data.map UInt8.toNat).map UInt8.ofNat = data := by
  induction data with
  | nil => rfl
  | cons b data ih => simp [ih]

theorem bs58_roundtrip (data : List UInt8) : bs58_decode (bs58_encode data) = some data := by
  obtain ⟨z, rest, e, hr⟩ := zeros_split (data.map UInt8.toNat)
  have hlt : ∀ d ∈ rest, d < 256 := by
    intro d hd
    have : d ∈ data.map UInt8.toNat := by rw [e]; exact List.mem_append_right _ hd
    obtain ⟨b, -, rfl⟩ := List.mem_map.1 this
    exact b.toNat_lt
  have henc : bs58_encode data =
      (List.replicate z 0 ++ toDigits 58 (fromDigits 256 rest)).map b58Digit := by
    unfold bs58_encode
    rw [takeWhile_map, e, takeWhile_zeros z rest hr, fromDigits_zeros, List.map_append,
      List.map_replicate]
    rfl
  unfold bs58_decode
  rw [henc, mapM_values]
  · simp only [Option.bind_eq_bind, Option.bind_some]
    rw [takeWhile_zeros z _ (toDigits_head _), fromDigits_zeros, fromDigits_toDigits,
      toDigits_fromDigits (by decide) hlt hr]
    have := congrArg (List.map UInt8.ofNat) e
    rw [map_ofNat_toNat, List.map_append, List.map_replicate] at this
    rw [this]
    rfl
  · intro d hd
    rcases List.mem_append.1 hd with hd | hd
    · rw [List.eq_of_mem_replicate hd]; decide
    · exact toDigits_lt (by decide) _ _ hd

theorem bs58_alphabet (data : List UInt8) : ∀ c ∈ bs58_encode data, c ∈ alphabet := by
  intro c hc
  unfold bs58_encode at hc
  rcases List.mem_append.1 hc with hc | hc
  · rw [List.eq_of_mem_replicate hc]; decide +kernel
  · obtain ⟨d, -, rfl⟩ := List.mem_map.1 hc
    exact b58Digit_mem d

/-! ## Base 58 by its specification -/

open Spec (InAlphabet digit58 numberOf Text58)

theorem fromDigits_eq (b : Nat) (ds : List Nat) : fromDigits b ds = numberOf b ds := by
  induction ds using List.reverseRecOn with
  | nil => rfl
  | append_singleton ds d ih =>
    unfold fromDigits numberOf at *
    rw [List.reverse_append, List.foldl_append, ← ih]
    simp [Nat.ofDigits_cons, Nat.mul_comm, Nat.add_comm]

theorem inAlphabet_lt {c : Char} (h : InAlphabet c) : c.toNat < 128 := by
  have := h.1
  simp only [Char.isAlphanum, Char.isAlpha, Char.isUpper, Char.isLower, Char.isDigit,
    Bool.or_eq_true, Bool.and_eq_true, decide_eq_true_eq, UInt32.le_iff_toNat_le] at this
  have h0 : c.val.toNat = c.toNat := rfl
  have h1 : 'A'.toNat = 65 := rfl
  have h2 : 'Z'.toNat = 90 := rfl
  have h3 : 'a'.toNat = 97 := rfl
  have h4 : 'z'.toNat = 122 := rfl
  have h5 : '0'.toNat = 48 := rfl
  have h6 : '9'.toNat = 57 := rfl
  norm_num at this
  omega

theorem inAlphabet_digit {c : Char} (h : InAlphabet c) :
    digit58 c < 58 ∧ b58Digit (digit58 c) = c := by
  have key : ∀ n : Fin 128, InAlphabet (Char.ofNat n.val) →
      digit58 (Char.ofNat n.val) < 58 ∧
        b58Digit (digit58 (Char.ofNat n.val)) = Char.ofNat n.val := by
    decide +kernel
  have := key ⟨c.toNat, inAlphabet_lt h⟩
  simp only [Char.ofNat_toNat] at this
  exact this h

theorem digit_inAlphabet {d : Nat} (h : d < 58) :
    InAlphabet (b58Digit d) ∧ digit58 (b58Digit d) = d ∧ (b58Digit d = '1' ↔ d = 0) := by
  have key : ∀ d : Fin 58, InAlphabet (b58Digit d.val) ∧ digit58 (b58Digit d.val) = d.val ∧
      (b58Digit d.val = '1' ↔ d.val = 0) := by
    decide +kernel
  exact key ⟨d, h⟩

theorem map_digit58 {ds : List Nat} (h : ∀ d ∈ ds, d < 58) :
    (ds.map b58Digit).map digit58 = ds := by
  induction ds with
  | nil => rfl
  | cons d ds ih =>
    rw [List.map_cons, List.map_cons, (digit_inAlphabet (h d (by simp))).2.1,
      ih fun x hx => h x (by simp [hx])]

theorem map_b58Digit {s : List Char} (h : ∀ c ∈ s, InAlphabet c) :
    (s.map digit58).map b58Digit = s := by
  induction s with
  | nil => rfl
  | cons c s ih =>
    rw [List.map_cons, List.map_cons, (inAlphabet_digit (h c (by simp))).2,
      ih fun x hx => h x (by simp [hx])]

theorem takeWhile_digits {ds : List Nat} (h : ∀ d ∈ ds, d < 58) :
    ((ds.map b58Digit).takeWhile (· == '1')).length = (ds.takeWhile (· == 0)).length := by
  induction ds with
  | nil => rfl
  | cons d ds ih =>
    have hb : (b58Digit d == '1') = (d == 0) := by
      rw [Bool.eq_iff_iff, beq_iff_eq, beq_iff_eq]
      exact (digit_inAlphabet (h d (by simp))).2.2
    simp only [List.map_cons, List.takeWhile_cons, hb]
    split
    · simp [ih fun x hx => h x (by simp [hx])]
    · rfl

/-- Digits are their leading zeros and the digits of their number. -/
theorem digits_eq {b : Nat} (hb : 1 < b) {l : List Nat} (h : ∀ d ∈ l, d < b) :
    l = List.replicate (l.takeWhile (· == 0)).length 0 ++ toDigits b (fromDigits b l) := by
  obtain ⟨z, rest, e, hr⟩ := zeros_split l
  have hlt : ∀ d ∈ rest, d < b := fun d hd => h d (by rw [e]; exact List.mem_append_right _ hd)
  rw [e, takeWhile_zeros z rest hr, fromDigits_zeros, toDigits_fromDigits hb hlt hr]

theorem bytes_lt (data : List UInt8) : ∀ d ∈ data.map UInt8.toNat, d < 256 := by
  intro d hd
  obtain ⟨b, -, rfl⟩ := List.mem_map.1 hd
  exact b.toNat_lt

/-- The digits that are written for bytes -/
theorem encode_digits (data : List UInt8) : ∃ ds, (∀ d ∈ ds, d < 58) ∧
    bs58_encode data = ds.map b58Digit ∧ fromDigits 58 ds = fromDigits 256 (data.map UInt8.toNat) ∧
    (ds.takeWhile (· == 0)).length = (data.takeWhile (· == 0)).length := by
  refine ⟨List.replicate (data.takeWhile (· == 0)).length 0 ++
    toDigits 58 (fromDigits 256 (data.map UInt8.toNat)), ?_, ?_, ?_, ?_⟩
  · intro d hd
    rcases List.mem_append.1 hd with hd | hd
    · rw [List.eq_of_mem_replicate hd]; decide
    · exact toDigits_lt (by decide) _ _ hd
  · rw [List.map_append, List.map_replicate]; rfl
  · rw [fromDigits_zeros, fromDigits_toDigits]
  · rw [takeWhile_zeros _ _ (toDigits_head _)]

theorem bs58_text (data : List UInt8) (s : List Char) :
    bs58_encode data = s ↔ Text58 data s := by
  obtain ⟨ds, hlt, henc, hnum, hz⟩ := encode_digits data
  constructor
  · rintro rfl
    rw [henc]
    refine ⟨?_, ?_, ?_⟩
    · intro c hc
      obtain ⟨d, hd, rfl⟩ := List.mem_map.1 hc
      exact (digit_inAlphabet (hlt d hd)).1
    · rw [map_digit58 hlt, ← fromDigits_eq, ← fromDigits_eq, hnum]
    · rw [takeWhile_digits hlt, hz]
  · rintro ⟨h1, h2, h3⟩
    have hs : ∀ d ∈ s.map digit58, d < 58 := by
      intro d hd
      obtain ⟨c, hc, rfl⟩ := List.mem_map.1 hd
      exact (inAlphabet_digit (h1 c hc)).1
    rw [← fromDigits_eq, ← fromDigits_eq] at h2
    have hz' := takeWhile_digits hs
    rw [map_b58Digit h1] at hz'
    have e : ds = s.map digit58 := by
      rw [digits_eq (by decide) hlt, digits_eq (by decide) hs, hnum, h2, hz, ← hz', h3]
    rw [henc, e, map_b58Digit h1]

theorem mapM_digits {s : List Char} {ds : List Nat} (h : s.mapM b58Value = some ds) :
    (∀ d ∈ ds, d < 58) ∧ s = ds.map b58Digit := by
  induction s generalizing ds with
  | nil => cases h; exact ⟨by simp, rfl⟩
  | cons c s ih =>
    rw [List.mapM_cons] at h
    simp only [Option.bind_eq_bind, Option.bind_eq_some_iff, Option.pure_def, Option.some.injEq] at h
    obtain ⟨d, hd, ds', hds, rfl⟩ := h
    obtain ⟨h1, h2⟩ := ih hds
    unfold b58Value at hd
    rw [List.findIdx?_eq_some_iff_getElem] at hd
    obtain ⟨hlt, he, -⟩ := hd
    have hl : alphabet.length = 58 := by decide +kernel
    refine ⟨?_, ?_⟩
    · intro x hx
      rcases List.mem_cons.1 hx with rfl | hx
      · omega
      · exact h1 x hx
    · rw [List.map_cons, ← h2]
      congr 1
      unfold b58Digit
      rw [List.getD_eq_getElem?_getD, List.getElem?_eq_getElem hlt]
      exact (beq_iff_eq.1 he).symm

theorem bs58_read (data : List UInt8) (s : List Char) :
    bs58_decode s = some data ↔ Text58 data s := by
  constructor
  · intro h
    unfold bs58_decode at h
    simp only [Option.bind_eq_bind, Option.bind_eq_some_iff, Option.some.injEq] at h
    obtain ⟨ds, hds, rfl⟩ := h
    obtain ⟨hlt, rfl⟩ := mapM_digits hds
    have hb : (List.replicate (ds.takeWhile (· == 0)).length (0 : UInt8) ++
        (toDigits 256 (fromDigits 58 ds)).map UInt8.ofNat).map UInt8.toNat =
        List.replicate (ds.takeWhile (· == 0)).length 0 ++ toDigits 256 (fromDigits 58 ds) := by
      rw [List.map_append, List.map_replicate, List.map_map]
      congr 1
      refine (List.map_congr_left fun d hd => ?_).trans (List.map_id _)
      have : d < 256 := toDigits_lt (by decide) _ d hd
      simp only [Function.comp, UInt8.toNat_ofNat', id]
      omega
    refine ⟨?_, ?_, ?_⟩
    · intro c hc
      obtain ⟨d, hd, rfl⟩ := List.mem_map.1 hc
      exact (digit_inAlphabet (hlt d hd)).1
    · rw [map_digit58 hlt, hb, ← fromDigits_eq, ← fromDigits_eq, fromDigits_zeros,
        fromDigits_toDigits]
    · rw [takeWhile_digits hlt, takeWhile_map, hb, takeWhile_zeros _ _ (toDigits_head _)]
  · intro h
    rw [← (bs58_text data s).2 h]
    exact bs58_roundtrip data

/-! ## Variable-length integers -/

theorem varint_read_encode (m i n : Nat) (rest : List UInt8) (h1 : n < 2 ^ (7 * i))
    (h2 : n + m * 2 ^ (7 * i) < 2 ^ 64) (hm : i = 0 ∨ m ≠ 0) :
    varint_read i n (varint_encode m ++ rest) = some (n + m * 2 ^ (7 * i), rest) := by
  induction m using Nat.strongRecOn generalizing i n with
  | ind m ih =>
    have hi : i < 10 := by
      rcases hm with rfl | hm
      · decide
      · by_contra hc
        have : 2 ^ 70 ≤ 2 ^ (7 * i) := Nat.pow_le_pow_right (by decide) (by omega)
        have : 2 ^ (7 * i) ≤ m * 2 ^ (7 * i) := Nat.le_mul_of_pos_left _ (by omega)
        omega
    unfold varint_encode
    by_cases hs : m < 128
    · have hb : (UInt8.ofNat m).toNat = m := by
        simp only [UInt8.toNat_ofNat']; omega
      have hz : ¬ (UInt8.ofNat m = 0 ∧ i > 0) := by
        rintro ⟨h0, hi0⟩
        have : (UInt8.ofNat m).toNat = 0 := by rw [h0]; rfl
        omega
      simp only [if_pos hs, List.cons_append, List.nil_append, varint_read, hb,
        if_neg (show ¬ i ≥ 10 by omega), if_neg hz, Nat.mod_eq_of_lt hs, Nat.mod_eq_of_lt h2]
    · have hb : (UInt8.ofNat (m % 128 + 128)).toNat = m % 128 + 128 := by
        simp only [UInt8.toNat_ofNat']; omega
      have hsum : n + m % 128 * 2 ^ (7 * i) + m / 128 * 2 ^ (7 * (i + 1)) =
          n + m * 2 ^ (7 * i) := by
        have : 2 ^ (7 * (i + 1)) = 128 * 2 ^ (7 * i) := by
          rw [Nat.mul_add, Nat.pow_add, Nat.mul_comm]
        rw [this, Nat.add_assoc, ← Nat.mul_assoc, ← Nat.add_mul]
        congr 2
        omega
      have hlt : n + m % 128 * 2 ^ (7 * i) < 2 ^ 64 := by omega
      have hlt' : n + m % 128 * 2 ^ (7 * i) < 2 ^ (7 * (i + 1)) := by
        have : 2 ^ (7 * (i + 1)) = 128 * 2 ^ (7 * i) := by
          rw [Nat.mul_add, Nat.pow_add, Nat.mul_comm]
        rw [this]
        have : m % 128 * 2 ^ (7 * i) ≤ 127 * 2 ^ (7 * i) := Nat.mul_le_mul_right _ (by omega)
        omega
      simp only [if_neg hs, List.cons_append, varint_read, hb,
        if_neg (show ¬ i ≥ 10 by omega), if_neg (show ¬ m % 128 + 128 < 128 by omega)]
      rw [show (m % 128 + 128) % 128 = m % 128 by omega, Nat.mod_eq_of_lt hlt,
        ih (m / 128) (by omega) _ _ hlt' (by rw [hsum]; exact h2) (by omega), hsum]

theorem varint_roundtrip {m : Nat} (h : m < 2 ^ 64) (rest : List UInt8) :
    varint_read 0 0 (varint_encode m ++ rest) = some (m, rest) := by
  have := varint_read_encode m 0 0 rest (by decide) (by simpa using h) (.inl rfl)
  simpa using this

/-! ## Multihashes -/

theorem multihash_roundtrip {h : Multihash} (h1 : h.code < 2 ^ 64) (h2 : h.digest.length ≤ 64) :
    Multihash.from_bytes h.to_bytes = some h := by
  unfold Multihash.from_bytes Multihash.to_bytes
  rw [List.append_assoc, varint_roundtrip h1]
  simp only [Option.bind_eq_bind, Option.bind_some]
  rw [varint_roundtrip (by omega)]
  simp only [Option.bind_some]
  rw [if_neg (by omega), if_neg (by omega), if_neg (by simp), List.take_length]

end Verif.Net
