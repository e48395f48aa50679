import Mathlib.NumberTheory.LucasPrimality
import Mathlib.Tactic.NormNum.Prime
import Mathlib.Data.ZMod.Basic
import Verif.Model.Blobs

/-! # The order of the scalar field of BLS12-381 is prime -/

namespace Verif

open Blobs (MODULUS)

/-- `a ^ n % p` by squaring, for `n < 2 ^ bits` -/
def powMod (p : Nat) : Nat → Nat → Nat → Nat
  | 0, _, _ => 1 % p
  | bits + 1, a, n =>
    if n % 2 = 0 then powMod p bits (a * a % p) (n / 2) else a * powMod p bits (a * a % p) (n / 2) % p

theorem powMod_cast (p bits a n : Nat) (h : n < 2 ^ bits) :
    ((powMod p bits a n : Nat) : ZMod p) = (a : ZMod p) ^ n := by
  induction bits generalizing a n with
  | zero =>
    have : n = 0 := by simpa using h
    subst this
    simp [powMod]
  | succ bits ih =>
    have hb : n / 2 < 2 ^ bits := by rw [Nat.pow_succ] at h; omega
    unfold powMod
    split
    · next h2 =>
      rw [ih _ _ hb]
      conv_rhs => rw [show n = 2 * (n / 2) by omega, pow_mul]
      simp [pow_two]
    · next h2 =>
      rw [ZMod.natCast_mod, Nat.cast_mul, ih _ _ hb]
      conv_rhs => rw [show n = 2 * (n / 2) + 1 by omega, pow_succ, pow_mul]
      simp [pow_two, mul_comm]

theorem pow_eq_one {p : Nat} {a n : Nat} (h : n < 2 ^ 256) (h1 : powMod p 256 a n = 1) :
    (a : ZMod p) ^ n = 1 := by
  rw [← powMod_cast p 256 a n h, h1, Nat.cast_one]

theorem pow_ne_one {p : Nat} {a n : Nat} (hp : 1 < p) (h : n < 2 ^ 256)
    (h1 : powMod p 256 a n % p ≠ 1) : (a : ZMod p) ^ n ≠ 1 := by
  rw [← powMod_cast p 256 a n h]
  intro h2
  rw [← Nat.cast_one, ZMod.natCast_eq_natCast_iff, Nat.ModEq, Nat.mod_eq_of_lt hp] at h2
  exact h1 h2

theorem modulus_sub_one : MODULUS - 1 = 2 ^ 32 * 3 * 11 * 19 * 10177 * 125527 * 859267 *
    906349 ^ 2 * 2508409 * 2529403 * 52437899 * 254760293 ^ 2 := by
  decide +kernel

/-- The prime factors of `MODULUS - 1` -/
theorem modulus_factors {q : Nat} (hq : q.Prime) (h : q ∣ MODULUS - 1) :
    q ∈ [2, 3, 11, 19, 10177, 125527, 859267, 906349, 2508409, 2529403, 52437899, 254760293] := by
  have one : ∀ {k : Nat}, k.Prime → q ∣ k → q = k :=
    fun hk hd => (Nat.prime_dvd_prime_iff_eq hq hk).1 hd
  rw [modulus_sub_one] at h
  simp only [hq.dvd_mul] at h
  simp only [List.mem_cons, List.not_mem_nil, or_false]
  rcases h with (((((((((((h | h) | h) | h) | h) | h) | h) | h) | h) | h) | h) | h) <;>
    first
    | (have := one (by norm_num) (hq.dvd_of_dvd_pow h); simp [this])
    | (have := one (by norm_num) h; simp [this])

theorem modulus_prime : MODULUS.Prime := by
  refine lucas_primality MODULUS ((7 : Nat) : ZMod MODULUS) (pow_eq_one (by decide +kernel)
    (by decide +kernel)) ?_
  intro q hq hd
  have key : ∀ q ∈ [2, 3, 11, 19, 10177, 125527, 859267, 906349, 2508409, 2529403, 52437899,
      254760293], (MODULUS - 1) / q < 2 ^ 256 ∧
        powMod MODULUS 256 7 ((MODULUS - 1) / q) % MODULUS ≠ 1 := by
    decide +kernel
  obtain ⟨h1, h2⟩ := key q (modulus_factors hq hd)
  exact pow_ne_one (by decide) h1 h2

instance : Fact MODULUS.Prime := ⟨modulus_prime⟩

end Verif
