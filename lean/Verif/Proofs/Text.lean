import Mathlib.Data.Nat.Digits.Lemmas
import Verif.Spec.Text

/-! # Proofs about text encodings -/

namespace Verif.Text

open Spec

/-! ## Hexadecimal -/

theorem isHexDigit_lt {c : Char} {v : Nat} (h : IsHexDigit c v) : v < 16 := by
  unfold IsHexDigit at h
  rcases h with h | h
  · have := (List.getElem?_eq_some_iff.1 h).1; exact this
  · have := (List.getElem?_eq_some_iff.1 h).1; exact this

theorem hexValue_of_digit {c : Char} {v : Nat} (h : IsHexDigit c v) : hexValue c = some v := by
  have hv := isHexDigit_lt h
  unfold IsHexDigit at h
  have key : ∀ v : Fin 16, ∀ c, ("0123456789abcdef".toList[v.val]? = some c ∨
      "0123456789ABCDEF".toList[v.val]? = some c) → hexValue c = some v.val := by
    intro v c hc
    rcases hc with h | h
    · have e : ∀ v : Fin 16, ("0123456789abcdef".toList[v.val]?).bind hexValue = some v.val := by
        decide +kernel
      have := e v
      rw [h] at this
      exact this
    · have e : ∀ v : Fin 16, ("0123456789ABCDEF".toList[v.val]?).bind hexValue = some v.val := by
        decide +kernel
      have := e v
      rw [h] at this
      exact this
  exact key ⟨v, hv⟩ c h

theorem char_of_range {c a : Char} {n : Nat} (h1 : a.toNat ≤ c.toNat) (h2 : c.toNat < a.toNat + n) :
    ∃ k < n, c = Char.ofNat (a.toNat + k) := by
  refine ⟨c.toNat - a.toNat, by omega, ?_⟩
  rw [Nat.add_sub_cancel' h1, Char.ofNat_toNat]

theorem le_toNat {a b : Char} : a ≤ b ↔ a.toNat ≤ b.toNat := by
  rw [Char.le_def, UInt32.le_iff_toNat_le]; rfl

theorem digit_of_hexValue {c : Char} {v : Nat} (h : hexValue c = some v) : IsHexDigit c v := by
  unfold hexValue at h
  unfold IsHexDigit
  simp only [le_toNat] at h
  split at h
  · rename_i hc
    obtain ⟨k, hk, rfl⟩ := char_of_range (n := 10) hc.1 (by
      have := hc.2; have e : '9'.toNat = 57 := rfl; have e' : '0'.toNat = 48 := rfl; omega)
    have e : ∀ k : Fin 10, ((Char.ofNat ('0'.toNat + k.val)).toNat - '0'.toNat = k.val) ∧
      "0123456789abcdef".toList[k.val]? = some (Char.ofNat ('0'.toNat + k.val)) := by decide +kernel
    obtain ⟨e1, e2⟩ := e ⟨k, hk⟩
    cases h
    left
    simp only at e1 e2
    rw [e1, e2]
  · split at h
    · rename_i hc
      obtain ⟨k, hk, rfl⟩ := char_of_range (n := 6) hc.1 (by
        have := hc.2; have e : 'f'.toNat = 102 := rfl; have e' : 'a'.toNat = 97 := rfl; omega)
      have e : ∀ k : Fin 6, ((Char.ofNat ('a'.toNat + k.val)).toNat - 'a'.toNat + 10 = k.val + 10) ∧
        "0123456789abcdef".toList[k.val + 10]? = some (Char.ofNat ('a'.toNat + k.val)) := by
        decide +kernel
      obtain ⟨e1, e2⟩ := e ⟨k, hk⟩
      cases h
      left
      simp only at e1 e2
      rw [e1, e2]
    · split at h
      · rename_i hc
        obtain ⟨k, hk, rfl⟩ := char_of_range (n := 6) hc.1 (by
          have := hc.2; have e : 'F'.toNat = 70 := rfl; have e' : 'A'.toNat = 65 := rfl; omega)
        have e : ∀ k : Fin 6,
          ((Char.ofNat ('A'.toNat + k.val)).toNat - 'A'.toNat + 10 = k.val + 10) ∧
          "0123456789ABCDEF".toList[k.val + 10]? = some (Char.ofNat ('A'.toNat + k.val)) := by
          decide +kernel
        obtain ⟨e1, e2⟩ := e ⟨k, hk⟩
        cases h
        right
        simp only at e1 e2
        rw [e1, e2]
      · cases h

theorem hexValue_iff {c : Char} {v : Nat} : hexValue c = some v ↔ IsHexDigit c v :=
  ⟨digit_of_hexValue, hexValue_of_digit⟩

theorem hexDigit_is {n : Nat} (h : n < 16) : IsHexDigit (hexDigit n) n := by
  have e : ∀ k : Fin 16, "0123456789abcdef".toList[k.val]? = some (hexDigit k.val) := by
    decide +kernel
  exact Or.inl (e ⟨n, h⟩)

theorem hexDecode_iff {s : List Char} {b : List UInt8} : hexDecode s = some b ↔ HexText s b := by
  induction s using hexDecode.induct generalizing b with
  | case1 =>
    unfold hexDecode HexText
    constructor
    · intro h; cases h; simp
    · rintro ⟨h, -⟩
      have : b = [] := List.eq_nil_of_length_eq_zero (by simp only [List.length_nil] at h; omega)
      rw [this]
  | case2 c =>
    unfold hexDecode HexText
    constructor
    · intro h; cases h
    · rintro ⟨h, -⟩
      simp only [List.length_cons, List.length_nil] at h
      omega
  | case3 a c rest ih =>
    unfold hexDecode
    simp only [Option.bind_eq_bind, Option.bind_eq_some_iff, Option.pure_def, Option.some.injEq]
    constructor
    · rintro ⟨x, hx, y, hy, bytes, hb, rfl⟩
      rw [ih] at hb
      rw [hexValue_iff] at hx hy
      refine ⟨by simp only [List.length_cons]; have := hb.1; omega, ?_⟩
      intro i byte hi
      cases i with
      | zero =>
        simp only [List.getElem?_cons_zero, Option.some.injEq] at hi
        subst hi
        refine ⟨a, c, x, y, rfl, rfl, hx, hy, ?_⟩
        have := isHexDigit_lt hx
        have := isHexDigit_lt hy
        rw [UInt8.toNat_ofNat']
        omega
      | succ i =>
        rw [List.getElem?_cons_succ] at hi
        obtain ⟨hi', lo', h, l, h1, h2, h3⟩ := hb.2 i byte hi
        refine ⟨hi', lo', h, l, ?_, ?_, h3⟩
        · rw [← h1, show 2 * (i + 1) = 2 * i + 1 + 1 by omega, List.getElem?_cons_succ,
            List.getElem?_cons_succ]
        · rw [← h2, show 2 * (i + 1) + 1 = 2 * i + 1 + 1 + 1 by omega, List.getElem?_cons_succ,
            List.getElem?_cons_succ]
    · rintro ⟨hlen, hb⟩
      cases b with
      | nil => simp at hlen
      | cons byte bytes =>
        obtain ⟨hi, lo, h, l, h1, h2, h3, h4, h5⟩ := hb 0 byte rfl
        simp only [Nat.mul_zero, List.getElem?_cons_zero, Option.some.injEq, Nat.zero_add,
          List.getElem?_cons_succ] at h1 h2
        subst h1 h2
        refine ⟨h, hexValue_iff.2 h3, l, hexValue_iff.2 h4, bytes, ih.2 ⟨?_, ?_⟩, ?_⟩
        · simp only [List.length_cons] at hlen; omega
        · intro i b hi
          obtain ⟨hi', lo', h', l', k1, k2, k3⟩ := hb (i + 1) b (by rwa [List.getElem?_cons_succ])
          rw [show 2 * (i + 1) = 2 * i + 1 + 1 by omega, List.getElem?_cons_succ,
            List.getElem?_cons_succ] at k1 k2
          exact ⟨hi', lo', h', l', k1, k2, k3⟩
        · rw [← h5, UInt8.ofNat_toNat]

theorem hexDecode_write (b : List UInt8) : hexDecode (write_hex_from_bytes b) = some b := by
  induction b with
  | nil => rfl
  | cons x xs ih =>
    have hx : x.toNat < 256 := x.toNat_lt
    show hexDecode (hexDigit (x.toNat / 16) :: hexDigit (x.toNat % 16) :: write_hex_from_bytes xs) = _
    unfold hexDecode
    rw [hexValue_of_digit (hexDigit_is (by omega)), hexValue_of_digit (hexDigit_is (by omega)), ih]
    have : 16 * (x.toNat / 16) + x.toNat % 16 = x.toNat := by omega
    simp only [Option.bind_eq_bind, Option.bind_some, this, UInt8.ofNat_toNat]
    rfl

theorem not_hex_x (v : Nat) : ¬ IsHexDigit 'x' v := by
  rw [← hexValue_iff]
  have : hexValue 'x' = none := by decide +kernel
  rw [this]
  exact nofun

theorem not_hexText_prefix {t : List Char} {b : List UInt8} : ¬ HexText ('0' :: 'x' :: t) b := by
  rintro ⟨h, h'⟩
  cases b with
  | nil => simp at h
  | cons byte bytes =>
    obtain ⟨hi, lo, h, l, -, h2, -, h4, -⟩ := h' 0 byte rfl
    cases h2
    exact not_hex_x _ h4

theorem stripPrefix_cases (s : List Char) :
    (∃ t, s = '0' :: 'x' :: t ∧ stripPrefix s = t) ∨
      ((∀ t, s ≠ '0' :: 'x' :: t) ∧ stripPrefix s = s) := by
  unfold stripPrefix
  split
  · exact Or.inl ⟨_, rfl, rfl⟩
  · rename_i h
    exact Or.inr ⟨fun t e => h t e, rfl⟩

theorem try_bytes_iff {s : List Char} {b : List UInt8} : try_bytes_from_hex_str s = some b ↔
    HexText s b ∨ ∃ t, s = '0' :: 'x' :: t ∧ HexText t b := by
  unfold try_bytes_from_hex_str
  rw [hexDecode_iff]
  rcases stripPrefix_cases s with ⟨t, rfl, h⟩ | ⟨hn, h⟩
  · rw [h]
    constructor
    · intro ht; exact Or.inr ⟨t, rfl, ht⟩
    · rintro (h | ⟨t', e, h⟩)
      · exact absurd h not_hexText_prefix
      · cases e; exact h
  · rw [h]
    constructor
    · exact Or.inl
    · rintro (h | ⟨t, e, -⟩)
      · exact h
      · exact absurd e (hn t)

/-! ## Decimal -/

/-- the value of a digit -/
theorem decValue_iff {c : Char} {d : Nat} :
    decValue c = some d ↔ "0123456789".toList[d]? = some c := by
  constructor
  · intro h
    unfold decValue at h
    simp only [le_toNat] at h
    split at h
    · rename_i hc
      obtain ⟨k, hk, rfl⟩ := char_of_range (n := 10) hc.1 (by
        have := hc.2; have e : '9'.toNat = 57 := rfl; have e' : '0'.toNat = 48 := rfl; omega)
      have e : ∀ k : Fin 10, ((Char.ofNat ('0'.toNat + k.val)).toNat - '0'.toNat = k.val) ∧
        "0123456789".toList[k.val]? = some (Char.ofNat ('0'.toNat + k.val)) := by decide +kernel
      obtain ⟨e1, e2⟩ := e ⟨k, hk⟩
      cases h
      simp only at e1 e2
      rw [e1, e2]
    · cases h
  · intro h
    have hd : d < 10 := (List.getElem?_eq_some_iff.1 h).1
    have e : ∀ k : Fin 10, ("0123456789".toList[k.val]?).bind decValue = some k.val := by
      decide +kernel
    have := e ⟨d, hd⟩
    simp only [h] at this
    exact this

theorem decDigit_is {n : Nat} (h : n < 10) : "0123456789".toList[n]? = some (decDigit n) := by
  have e : ∀ k : Fin 10, "0123456789".toList[k.val]? = some (decDigit k.val) := by decide +kernel
  exact e ⟨n, h⟩

/-- value of a list of digits, most significant first -/
def value (acc : Nat) (ds : List Nat) : Nat := ds.foldl (fun a d => a * 10 + d) acc

theorem value_cons (acc d : Nat) (ds : List Nat) : value acc (d :: ds) = value (acc * 10 + d) ds :=
  rfl

theorem le_value (acc : Nat) (ds : List Nat) : acc ≤ value acc ds := by
  induction ds generalizing acc with
  | nil => exact Nat.le_refl _
  | cons d ds ih =>
    have := ih (acc * 10 + d)
    rw [value_cons]
    omega

theorem value_eq (acc : Nat) (ds : List Nat) :
    value acc ds = Nat.ofDigits 10 (ds.reverse ++ [acc]) := by
  induction ds generalizing acc with
  | nil => simp [value]
  | cons d ds ih =>
    rw [value_cons, ih, List.reverse_cons, Nat.ofDigits_append, List.append_assoc,
      Nat.ofDigits_append]
    simp [Nat.ofDigits]
    ring

theorem value_zero (ds : List Nat) : value 0 ds = Nat.ofDigits 10 ds.reverse := by
  rw [value_eq, Nat.ofDigits_append]; simp [Nat.ofDigits]

theorem parseDigits_iff {acc : Nat} {s : List Char} {n : Nat} (hacc : acc < 2 ^ 64) :
    parseDigits acc s = some n ↔
      n < 2 ^ 64 ∧ ∃ ds : List Nat, s.map some = ds.map ("0123456789".toList[·]?) ∧
        n = value acc ds := by
  induction s generalizing acc with
  | nil =>
    unfold parseDigits
    constructor
    · intro h; cases h; exact ⟨hacc, [], rfl, rfl⟩
    · rintro ⟨-, ds, h, rfl⟩
      cases ds with
      | nil => rfl
      | cons => simp at h
  | cons c cs ih =>
    unfold parseDigits
    simp only [Option.bind_eq_bind, Option.bind_eq_some_iff]
    constructor
    · rintro ⟨d, hd, h⟩
      split at h
      · rename_i hlt
        rw [ih hlt] at h
        obtain ⟨h1, ds, h2, h3⟩ := h
        refine ⟨h1, d :: ds, ?_, h3⟩
        rw [List.map_cons, List.map_cons, h2, decValue_iff.1 hd]
      · cases h
    · rintro ⟨h1, ds, h2, h3⟩
      cases ds with
      | nil => simp at h2
      | cons d ds =>
        rw [List.map_cons, List.map_cons, List.cons.injEq] at h2
        rw [value_cons] at h3
        have hle := le_value (acc * 10 + d) ds
        have hlt : acc * 10 + d < 2 ^ 64 := by omega
        refine ⟨d, decValue_iff.2 h2.1.symm, ?_⟩
        rw [if_pos hlt, ih hlt]
        exact ⟨h1, ds, h2.2, h3⟩

theorem parse0_iff {s : List Char} {n : Nat} (hs : s ≠ []) :
    parseDigits 0 s = some n ↔ n < 2 ^ 64 ∧ DecText s n := by
  rw [parseDigits_iff (by decide)]
  unfold DecText
  constructor
  · rintro ⟨h1, ds, h2, h3⟩
    refine ⟨h1, ds, ?_, h2, h3.trans (value_zero ds)⟩
    rintro rfl
    cases s with
    | nil => exact hs rfl
    | cons => simp at h2
  · rintro ⟨h1, ds, -, h2, h3⟩
    exact ⟨h1, ds, h2, h3.trans (value_zero ds).symm⟩

theorem decText_ne_nil {s : List Char} {n : Nat} (h : DecText s n) : s ≠ [] := by
  obtain ⟨ds, h1, h2, -⟩ := h
  rintro rfl
  cases ds with
  | nil => exact h1 rfl
  | cons => simp at h2

theorem not_decText_cons {c : Char} (hc : decValue c = none) {s : List Char} {n : Nat} :
    ¬ DecText (c :: s) n := by
  rintro ⟨ds, h1, h2, -⟩
  cases ds with
  | nil => exact h1 rfl
  | cons d ds =>
    rw [List.map_cons, List.map_cons, List.cons.injEq] at h2
    have := decValue_iff.2 h2.1.symm
    rw [hc] at this
    cases this

theorem plus_not_digit : decValue '+' = none := by decide +kernel

theorem parseU64_iff {s : List Char} {n : Nat} : parseU64 s = some n ↔
    n < 2 ^ 64 ∧ (DecText s n ∨ ∃ t, s = '+' :: t ∧ DecText t n) := by
  unfold parseU64
  split
  · constructor
    · nofun
    · rintro ⟨-, h | ⟨t, h, -⟩⟩
      · exact absurd rfl (decText_ne_nil h)
      · cases h
  · constructor
    · nofun
    · rintro ⟨-, h | ⟨t, h, h'⟩⟩
      · exact absurd h (not_decText_cons plus_not_digit)
      · cases h; exact absurd rfl (decText_ne_nil h')
  · rename_i rest hne
    have hr : rest ≠ [] := by rintro rfl; exact hne rfl
    rw [parse0_iff hr]
    constructor
    · rintro ⟨h1, h2⟩; exact ⟨h1, Or.inr ⟨rest, rfl, h2⟩⟩
    · rintro ⟨h1, h | ⟨t, h, h'⟩⟩
      · exact absurd h (not_decText_cons plus_not_digit)
      · cases h; exact ⟨h1, h'⟩
  · rename_i h1 h2 h3
    rw [parse0_iff h1]
    constructor
    · rintro ⟨a, b⟩; exact ⟨a, Or.inl b⟩
    · rintro ⟨a, b | ⟨t, b, -⟩⟩
      · exact ⟨a, b⟩
      · exact absurd b (h3 t)

theorem decimal_digits (n : Nat) : (decimal n).map some =
    (if n = 0 then [0] else (Nat.digits 10 n).reverse).map ("0123456789".toList[·]?) := by
  induction n using decimal.induct with
  | case1 n h =>
    rw [decimal, if_pos h]
    by_cases h0 : n = 0
    · subst h0; rfl
    · rw [if_neg h0, Nat.digits_of_lt 10 n h0 h]
      simp only [List.reverse_singleton, List.map_cons, List.map_nil, decDigit_is h]
  | case2 n h ih =>
    rw [decimal, if_neg h, List.map_append, ih, if_neg (by omega), if_neg (by omega),
      Nat.digits_def' (n := n) (by decide) (by omega), List.reverse_cons, List.map_append]
    simp only [List.map_cons, List.map_nil, decDigit_is (n := n % 10) (by omega)]

theorem decimal_text (n : Nat) : DecText (decimal n) n := by
  refine ⟨_, ?_, decimal_digits n, ?_⟩
  · split
    · simp
    · rw [Ne, List.reverse_eq_nil_iff, Nat.digits_eq_nil_iff_eq_zero]; assumption
  · split
    · rename_i h; subst h; rfl
    · rw [List.reverse_reverse, Nat.ofDigits_digits]

theorem parse_decimal {n : Nat} (h : n < 2 ^ 64) : parseU64 (decimal n) = some n :=
  parseU64_iff.2 ⟨h, Or.inl (decimal_text n)⟩

end Verif.Text
