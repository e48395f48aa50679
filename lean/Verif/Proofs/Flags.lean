import Verif.Proofs.Predicates
import Verif.Spec.Flags

namespace Verif
open Spec

theorem flagBit_testBit {i j : Nat} (hi : i < 8) (_ : j < 8) :
    (UInt8.ofNat (2 ^ i)).toNat.testBit j = decide (i = j) := by
  have h : (2 : Nat) ^ i < 256 := by
    calc 2 ^ i < 2 ^ 8 := Nat.pow_lt_pow_right (by omega) hi
      _ = 256 := rfl
  have : (UInt8.ofNat (2 ^ i)).toNat = 2 ^ i := by
    simp [UInt8.toNat_ofNat', Nat.mod_eq_of_lt h]
  rw [this, Nat.testBit_two_pow]

theorem add_flag_ok {flags : UInt8} {i : Nat} (hi : i < 8) :
    add_flag flags i = .ok (flags ||| UInt8.ofNat (2 ^ i)) := by
  simp [add_flag, flagBit, hi]

theorem flagSet_or {a : UInt8} {i j : Nat} (hi : i < 8) (hj : j < 8) :
    FlagSet (a ||| UInt8.ofNat (2 ^ i)) j ↔ FlagSet a j ∨ i = j := by
  unfold FlagSet
  rw [UInt8.toNat_or, Nat.testBit_or, flagBit_testBit hi hj]
  simp

theorem u8_ext {a b : UInt8} (h : ∀ j < 8, FlagSet a j ↔ FlagSet b j) : a = b := by
  apply UInt8.toNat_inj.1
  apply Nat.eq_of_testBit_eq
  intro j
  by_cases hj : j < 8
  · exact Bool.eq_iff_iff.2 (h j hj)
  · have hp : 2 ^ 8 ≤ 2 ^ j := Nat.pow_le_pow_right (by omega) (by omega)
    have ha := a.toNat_lt
    have hb := b.toNat_lt
    rw [Nat.testBit_lt_two_pow (by omega), Nat.testBit_lt_two_pow (by omega)]

theorem has_flag_ok {flags : UInt8} {i : Nat} (hi : i < 8) :
    has_flag flags i = .ok (decide (FlagSet flags i)) := by
  simp only [has_flag, flagBit, hi, if_true, R_bind_ok, R_pure, Except.ok.injEq]
  rw [Bool.eq_iff_iff, beq_iff_eq, decide_eq_true_eq]
  constructor
  · intro h
    have : FlagSet (flags &&& UInt8.ofNat (2 ^ i)) i := by
      rw [h]; unfold FlagSet; rw [flagBit_testBit hi hi]; simp
    unfold FlagSet at *
    rw [UInt8.toNat_and, Nat.testBit_and] at this
    simp_all
  · intro h
    apply u8_ext
    intro j hj
    unfold FlagSet at *
    rw [UInt8.toNat_and, Nat.testBit_and, flagBit_testBit hi hj]
    by_cases hij : i = j
    · subst hij; simp [h]
    · simp [hij]

theorem add_flag_spec {flags r : UInt8} {i : Nat} (h : add_flag flags i = .ok r) :
    i < 8 ∧ ∀ j < 8, FlagSet r j ↔ FlagSet flags j ∨ j = i := by
  by_cases hi : i < 8
  · rw [add_flag_ok hi] at h
    cases h
    exact ⟨hi, fun j hj => by rw [flagSet_or hi hj]; simp [eq_comm]⟩
  · simp [add_flag, flagBit, hi] at h

end Verif
