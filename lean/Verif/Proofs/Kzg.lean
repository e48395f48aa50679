import Mathlib.LinearAlgebra.Lagrange
import Mathlib.LinearAlgebra.Dual.Lemmas
import Mathlib.Algebra.Polynomial.Div
import Mathlib.Tactic.Ring
import Mathlib.Tactic.FieldSimp
import Mathlib.Tactic.LinearCombination
import Verif.Proofs.Bls
import Verif.Proofs.Keys
import Verif.Spec.Kzg

/-! # Polynomials given by values at roots of unity, and KZG proofs -/

namespace Verif.Kzg

open Polynomial

section Algebra

variable {F : Type} [Field F] {n : Nat} {w : Fin n → F}

theorem nodal_roots (hn : 0 < n) (hi : Function.Injective w) (hw : ∀ i, w i ^ n = 1) :
    Lagrange.nodal Finset.univ w = X ^ n - 1 := by
  have hd : (X ^ n - 1 : F[X]).degree = n := by
    simpa using degree_X_pow_sub_C hn (1 : F)
  have hm : (X ^ n - 1 : F[X]).Monic := by
    simpa using monic_X_pow_sub_C (1 : F) (Nat.ne_of_gt hn)
  have hdn : (Lagrange.nodal Finset.univ w).degree = n := by simp [Lagrange.degree_nodal]
  refine Polynomial.eq_of_degree_sub_lt_of_eval_index_eq (s := Finset.univ) (v := w) hi.injOn ?_ ?_
  · rw [Finset.card_univ, Fintype.card_fin, ← hdn]
    exact degree_sub_lt_left (hdn.trans hd.symm) Lagrange.nodal_ne_zero
      (by rw [hm.leadingCoeff, (Lagrange.nodal_monic).leadingCoeff])
  · intro i _
    rw [Lagrange.eval_nodal_at_node (Finset.mem_univ i)]
    simp [hw i]

theorem root_ne_zero (hn : 0 < n) (hw : ∀ i, w i ^ n = 1) (i : Fin n) : w i ≠ 0 := by
  intro h
  have := hw i
  rw [h, zero_pow (Nat.ne_of_gt hn)] at this
  exact zero_ne_one this

theorem weight_roots (hn : 0 < n) (hi : Function.Injective w) (hw : ∀ i, w i ^ n = 1) (i : Fin n) :
    Lagrange.nodalWeight Finset.univ w i = w i * (n : F)⁻¹ := by
  rw [Lagrange.nodalWeight_eq_eval_derivative_nodal (Finset.mem_univ i), nodal_roots hn hi hw]
  have h0 := root_ne_zero hn hw i
  have h1 : w i ^ (n - 1) = (w i)⁻¹ := by
    refine eq_inv_of_mul_eq_one_left ?_
    rw [← pow_succ, Nat.sub_add_cancel hn, hw i]
  rw [derivative_sub, derivative_X_pow, derivative_one, sub_zero, eval_mul, eval_pow, eval_X, h1,
    eval_C, mul_inv, inv_inv, mul_comm]

/-- The value of a polynomial of degree below `n` at a point that is no root of unity -/
theorem barycentric (hn : 0 < n) (hi : Function.Injective w) (hw : ∀ i, w i ^ n = 1) {p : F[X]}
    (hp : p.degree < n) {z : F} (hz : ∀ i, w i ≠ z) :
    (∑ i, (z - w i)⁻¹ * w i * p.eval (w i)) * (n : F)⁻¹ * (z ^ n - 1) = p.eval z := by
  have hp' : p.degree < (Finset.univ : Finset (Fin n)).card := by simpa using hp
  have := Lagrange.eval_interpolate_not_at_node (s := Finset.univ) (v := w)
    (fun i => p.eval (w i)) (x := z) (fun i _ => (hz i).symm)
  rw [← Lagrange.eq_interpolate hi.injOn hp', nodal_roots hn hi hw] at this
  rw [this]
  simp only [weight_roots hn hi hw, eval_sub, eval_pow, eval_X, eval_one, Finset.sum_mul,
    Finset.mul_sum]
  refine Finset.sum_congr rfl fun i _ => ?_
  ring

/-- The values of a polynomial of degree below `n - 1` at the roots of unity -/
theorem sum_roots (hn : 0 < n) (hnF : (n : F) ≠ 0) (hi : Function.Injective w)
    (hw : ∀ i, w i ^ n = 1) {q : F[X]} (hq : q.degree < (n - 1 : Nat)) :
    ∑ i, q.eval (w i) * w i = 0 := by
  have hq' : q.degree < (Finset.univ : Finset (Fin n)).card := by
    simp only [Finset.card_univ, Fintype.card_fin]
    exact hq.trans_le (by exact_mod_cast Nat.sub_le n 1)
  have h := Lagrange.coeff_eq_sum (s := Finset.univ) (v := w) hi.injOn hq'
  rw [Finset.card_univ, Fintype.card_fin, coeff_eq_zero_of_degree_lt hq] at h
  have h2 : ∀ i, q.eval (w i) / ∏ j ∈ Finset.univ.erase i, (w i - w j) =
      q.eval (w i) * w i * (n : F)⁻¹ := by
    intro i
    rw [div_eq_mul_inv, ← Finset.prod_inv_distrib]
    have := weight_roots hn hi hw i
    unfold Lagrange.nodalWeight at this
    rw [this, mul_assoc]
  simp only [h2, ← Finset.sum_mul] at h
  rcases mul_eq_zero.1 h.symm with h | h
  · exact h
  · exact absurd h (inv_ne_zero hnF)

/-- Division by `X - z`, with remainder -/
theorem exists_quotient (p : F[X]) (z : F) : ∃ q : F[X], p - C (p.eval z) = (X - C z) * q := by
  have : (X - C z) ∣ p - C (p.eval z) := by
    rw [dvd_iff_isRoot]; simp
  exact this

theorem quotient_degree (hn : 0 < n) {p q : F[X]} {z : F} (hp : p.degree < n)
    (h : p - C (p.eval z) = (X - C z) * q) : q.degree < (n - 1 : Nat) := by
  by_cases hq : q = 0
  · rw [hq, degree_zero]; exact bot_lt_iff_ne_bot.2 (by simp)
  have h1 : (p - C (p.eval z)).degree < n := by
    refine (degree_sub_le _ _).trans_lt (max_lt hp (degree_C_le.trans_lt ?_))
    exact_mod_cast hn
  rw [h, degree_mul, degree_X_sub_C, degree_eq_natDegree hq] at h1
  rw [degree_eq_natDegree hq]
  have : 1 + q.natDegree < n := by exact_mod_cast h1
  exact_mod_cast (by omega : q.natDegree < n - 1)

/-- The quotient at another root of unity -/
theorem quotient_value {p q : F[X]} {z x : F} (h : p - C (p.eval z) = (X - C z) * q) (hx : x ≠ z) :
    q.eval x = (p.eval x - p.eval z) * (x - z)⁻¹ := by
  have := congrArg (eval x) h
  simp only [eval_sub, eval_C, eval_mul, eval_X] at this
  rw [this, mul_comm (x - z), mul_inv_cancel_right₀ (sub_ne_zero.2 hx)]

/-- The quotient at the root of unity where it vanishes -/
theorem quotient_root (hn : 0 < n) (hnF : (n : F) ≠ 0) (hi : Function.Injective w)
    (hw : ∀ i, w i ^ n = 1) {p q : F[X]} (hp : p.degree < n) {m : Fin n}
    (h : p - C (p.eval (w m)) = (X - C (w m)) * q) :
    q.eval (w m) = ∑ j, if j = m then 0 else
      (p.eval (w j) - p.eval (w m)) * w j * ((w m - w j) * w m)⁻¹ := by
  have h0 := root_ne_zero hn hw m
  have hs := sum_roots hn hnF hi hw (quotient_degree hn hp h)
  rw [← Finset.add_sum_erase _ _ (Finset.mem_univ m)] at hs
  have hr : (∑ j, if j = m then 0 else
      (p.eval (w j) - p.eval (w m)) * w j * ((w m - w j) * w m)⁻¹) =
      ∑ j ∈ Finset.univ.erase m, -(q.eval (w j) * w j) * (w m)⁻¹ := by
    rw [← Finset.add_sum_erase _ _ (Finset.mem_univ m), if_pos rfl, zero_add]
    refine Finset.sum_congr rfl fun j hj => ?_
    have hj' : j ≠ m := Finset.ne_of_mem_erase hj
    have hne : w j ≠ w m := fun e => hj' (hi e)
    rw [if_neg hj', quotient_value h hne, mul_inv,
      show (w j - w m)⁻¹ = -(w m - w j)⁻¹ by rw [← inv_neg, neg_sub]]
    ring
  rw [hr, ← Finset.sum_mul, Finset.sum_neg_distrib]
  field_simp
  linear_combination hs

/-- Lagrange interpolation of a polynomial of degree below `n` -/
theorem eval_basis_sum (hi : Function.Injective w) {p : F[X]} (hp : p.degree < n) (x : F) :
    ∑ i, p.eval (w i) * (Lagrange.basis Finset.univ w i).eval x = p.eval x := by
  have hp' : p.degree < (Finset.univ : Finset (Fin n)).card := by simpa using hp
  conv_rhs => rw [Lagrange.eq_interpolate hi.injOn hp', Lagrange.interpolate_apply]
  simp [eval_finsetSum]

end Algebra

/-! ## The library -/

open Spec Blobs

section Library

variable {S : Settings} {τ : Fr}

theorem elements_ne_zero : ((FIELD_ELEMENTS_PER_BLOB : Nat) : Fr) ≠ 0 := by
  rw [Ne, ZMod.natCast_eq_zero_iff]
  intro h
  exact absurd (Nat.le_of_dvd (by decide) h) (by decide +kernel)

theorem elements_pos : 0 < FIELD_ELEMENTS_PER_BLOB := by decide

theorem rootIndex_some (h : SoundSetup S τ) {z : Fr} {i : Fin FIELD_ELEMENTS_PER_BLOB} :
    rootIndex S z = some i ↔ S.roots i = z := by
  unfold rootIndex
  constructor
  · intro e
    simpa using List.find?_some e
  · rintro rfl
    cases e : (List.finRange FIELD_ELEMENTS_PER_BLOB).find?
        fun j => decide (S.roots j = S.roots i) with
    | none =>
      rw [List.find?_eq_none] at e
      exact absurd (decide_eq_true rfl) (e i (List.mem_finRange i))
    | some j =>
      have : S.roots j = S.roots i := by simpa using List.find?_some e
      rw [h.distinct this]

theorem rootIndex_none (h : SoundSetup S τ) {z : Fr} :
    rootIndex S z = none ↔ ∀ i, S.roots i ≠ z := by
  constructor
  · intro e i hi
    rw [(rootIndex_some h).2 hi] at e
    cases e
  · intro e
    cases h' : rootIndex S z with
    | none => rfl
    | some i => exact absurd ((rootIndex_some h).1 h') (e i)

/-- The values of a polynomial at the roots of unity -/
def values (S : Settings) (p : Fr[X]) : Evaluations := fun i => p.eval (S.roots i)

theorem evaluate_values (h : SoundSetup S τ) {p : Fr[X]} (hp : p.degree < FIELD_ELEMENTS_PER_BLOB)
    (z : Fr) : evaluate S (values S p) z = p.eval z := by
  unfold evaluate
  cases e : rootIndex S z with
  | some i => simp only [values, (rootIndex_some h).1 e]
  | none => exact barycentric elements_pos h.distinct h.unity hp ((rootIndex_none h).1 e)

theorem quotient_values (h : SoundSetup S τ) {p q : Fr[X]} {z : Fr}
    (hp : p.degree < FIELD_ELEMENTS_PER_BLOB) (hq : p - C (p.eval z) = (X - C z) * q) :
    quotient S (values S p) z (p.eval z) = values S q := by
  funext i
  unfold quotient
  split
  · next e =>
    have e := (rootIndex_some h).1 e
    subst e
    exact (quotient_root elements_pos elements_ne_zero h.distinct h.unity hp hq).symm
  · next e =>
    exact (quotient_value hq fun e' => e ((rootIndex_some h).2 e')).symm

theorem lincomb_values (h : SoundSetup S τ) {p : Fr[X]} (hp : p.degree < FIELD_ELEMENTS_PER_BLOB) :
    lincomb S (values S p) = commitTo S τ p := by
  unfold lincomb commitTo values
  rw [← eval_basis_sum h.distinct hp τ, Finset.sum_smul]
  refine Finset.sum_congr rfl fun i _ => ?_
  rw [h.lagrange i, smul_smul]

theorem pairing_injective (h : SoundSetup S τ) {a b : S.G1} :
    S.pairing a S.generator2 = S.pairing b S.generator2 ↔ a = b := by
  constructor
  · intro e
    have h1 := h.add_left (a - b) b S.generator2
    rw [sub_add_cancel, e] at h1
    exact sub_eq_zero.1 (h.nondegenerate _ (by simpa using h1))
  · rintro rfl; rfl

theorem verify_impl (h : SoundSetup S τ) (c : S.G1) (z y : Fr) (π : S.G1) :
    verify_kzg_proof_impl S c z y π = true ↔ Proves S τ c z y π := by
  unfold verify_kzg_proof_impl Proves
  rw [decide_eq_true_eq, h.tau, ← sub_smul, h.scalar, pairing_injective h]
  exact eq_comm

/-- The quotient proves the value. -/
theorem quotient_proves {p q : Fr[X]} {z : Fr} (hq : p - C (p.eval z) = (X - C z) * q) :
    Proves S τ (commitTo S τ p) z (p.eval z) (commitTo S τ q) := by
  unfold Proves commitTo
  have := congrArg (eval τ) hq
  simp only [eval_sub, eval_C, eval_mul, eval_X] at this
  rw [smul_smul, ← this, sub_smul]

/-! ### Blobs -/

/-- The elements of a blob -/
def elements (blob : Bytes) : Evaluations := fun i => (ofBeBytes (chunk blob i) : Fr)

/-- The polynomial of a blob -/
noncomputable def blobPolynomial (S : Settings) (blob : Bytes) : Fr[X] :=
  Lagrange.interpolate Finset.univ S.roots (elements blob)

theorem blobPolynomial_degree (h : SoundSetup S τ) (blob : Bytes) :
    (blobPolynomial S blob).degree < FIELD_ELEMENTS_PER_BLOB := by
  have := Lagrange.degree_interpolate_lt (s := Finset.univ) (v := S.roots) (elements blob)
    h.distinct.injOn
  rw [Finset.card_univ, Fintype.card_fin] at this
  exact this

theorem blobPolynomial_values (h : SoundSetup S τ) (blob : Bytes) :
    values S (blobPolynomial S blob) = elements blob := by
  funext i
  exact Lagrange.eval_interpolate_at_node _ h.distinct.injOn (Finset.mem_univ i)

theorem represents_iff (h : SoundSetup S τ) {blob : Bytes} {p : Fr[X]} :
    Represents S blob p ↔ p = blobPolynomial S blob := by
  constructor
  · rintro ⟨h1, h2⟩
    refine Lagrange.eq_interpolate_of_eval_eq _ h.distinct.injOn ?_ fun i _ => h2 i
    rw [Finset.card_univ, Fintype.card_fin]
    exact h1
  · intro e
    rw [e]
    exact ⟨blobPolynomial_degree h blob, fun i => congrFun (blobPolynomial_values h blob) i⟩

theorem blob_cases (blob : Bytes) : ValidBlob blob ∧ sized BYTES_PER_BLOB blob = .ok blob ∧
    blob_to_polynomial blob = .ok (elements blob) ∨
    ¬ ValidBlob blob ∧ (sized BYTES_PER_BLOB blob = .error .InvalidBytesLength ∨
      sized BYTES_PER_BLOB blob = .ok blob ∧ blob_to_polynomial blob = .error .BadArgs) := by
  unfold sized
  by_cases h1 : blob.length = BYTES_PER_BLOB
  · rw [if_pos h1]
    unfold blob_to_polynomial
    split
    · next h2 =>
      exact .inl ⟨⟨h1, fun k hk => h2 ⟨k, hk⟩⟩, rfl, rfl⟩
    · next h2 =>
      exact .inr ⟨fun hv => h2 fun i => hv.2 i i.isLt, .inr ⟨rfl, rfl⟩⟩
  · rw [if_neg h1]
    exact .inr ⟨fun hv => h1 hv.1, .inl rfl⟩

attribute [local irreducible] lincomb blobPolynomial commitTo evaluate quotient

/-! ### Scalars and points -/

theorem sized_ok {n : Nat} {b b' : Bytes} : sized n b = .ok b' ↔ b.length = n ∧ b' = b := by
  unfold sized
  split
  · next h => simp [h, eq_comm]
  · next h => simp [h]

theorem expect_ok {α : Type} {x : Except Err α} {a : α} : expect x = .ok a ↔ x = .ok a := by
  cases x <;> simp [expect]

theorem scalar_ok {b : Bytes} {x : Fr} : bytes_to_bls_field b = .ok x ↔ ofBeBytes b = x.val := by
  unfold bytes_to_bls_field
  split
  · next h =>
    rw [Except.ok.injEq]
    constructor
    · rintro rfl; exact (ZMod.val_cast_of_lt h).symm
    · intro e; rw [e, ZMod.natCast_zmod_val]
  · next h =>
    exact ⟨fun e => (by cases e), fun e => absurd (e ▸ ZMod.val_lt x) h⟩

theorem bytes_from_encodes (x : Fr) : Encodes (bytes_from_bls_field x) x := by
  have e : bytes_from_bls_field x = Keys.toBeBytes 32 x.val := rfl
  rw [e]
  refine ⟨Keys.toBe_length 32 _, ?_⟩
  rw [Keys.ofBe_toBe]
  exact Nat.mod_eq_of_lt (Nat.lt_trans (ZMod.val_lt x) (by decide +kernel))

theorem encodes_unique {b b' : Bytes} {x : Fr} (h : Encodes b x) (h' : Encodes b' x) : b = b' := by
  have h1 := Keys.toBe_ofBe b
  have h2 := Keys.toBe_ofBe b'
  rw [h.1, h.2] at h1
  rw [h'.1, h'.2] at h2
  rw [← h1, ← h2]

theorem point_ok (h : SoundSetup S τ) {b : Bytes} {p : S.G1} :
    bytes_to_g1 S b = .ok p ↔ S.point_to_bytes p = b := by
  unfold bytes_to_g1
  rw [← h.encoding]
  cases S.point_from_bytes b <;> simp

theorem accepted_ok {b : Bool} : accepted b = .ok () ↔ b = true := by
  cases b <;> simp [accepted]

theorem pure_ok {α : Type} {a b : α} : (pure a : Except Err α) = .ok b ↔ b = a := by
  simp [pure, Except.pure, eq_comm]

theorem polynomial_ok {blob : Bytes} {p : Evaluations} :
    (sized BYTES_PER_BLOB blob = .ok blob ∧ blob_to_polynomial blob = .ok p) ↔
      ValidBlob blob ∧ p = elements blob := by
  rcases blob_cases blob with ⟨h1, h2, h3⟩ | ⟨h1, h2 | ⟨h2, h3⟩⟩
  · simp [h1, h2, h3, eq_comm]
  · simp [h1, h2]
  · simp [h1, h2, h3]

theorem impl_eq (h : SoundSetup S τ) (blob : Bytes) (z : Fr) {q : Fr[X]}
    (hq : blobPolynomial S blob - C ((blobPolynomial S blob).eval z) = (X - C z) * q) :
    compute_kzg_proof_impl S (elements blob) z =
      (commitTo S τ q, (blobPolynomial S blob).eval z) := by
  have hd := blobPolynomial_degree h blob
  have hq' : q.degree < FIELD_ELEMENTS_PER_BLOB :=
    (quotient_degree elements_pos hd hq).trans (by
      exact_mod_cast (by decide : FIELD_ELEMENTS_PER_BLOB - 1 < FIELD_ELEMENTS_PER_BLOB))
  unfold compute_kzg_proof_impl
  rw [← blobPolynomial_values h, evaluate_values h hd]
  dsimp only
  rw [quotient_values h hd hq, lincomb_values h hq']

/-! ## The functions -/

theorem commitment_ok (h : SoundSetup S τ) {blob c : Bytes} :
    blob_to_kzg_commitment S blob = .ok c ↔
      ValidBlob blob ∧ S.point_to_bytes (commitTo S τ (blobPolynomial S blob)) = c := by
  unfold blob_to_kzg_commitment ckzg_blob_to_kzg_commitment
  simp only [Bls.bind_ok, pure_ok, expect_ok, sized_ok (n := BYTES_PER_COMMITMENT)]
  constructor
  · rintro ⟨b, hb, p, ⟨e, he, rfl⟩, -, rfl⟩
    obtain rfl := (sized_ok.1 hb).2
    obtain ⟨h1, rfl⟩ := polynomial_ok.1 ⟨hb, he⟩
    exact ⟨h1, by rw [← blobPolynomial_values h, lincomb_values h (blobPolynomial_degree h _)]⟩
  · rintro ⟨h1, rfl⟩
    obtain ⟨h2, h3⟩ := (polynomial_ok (p := elements blob)).2 ⟨h1, rfl⟩
    refine ⟨blob, h2, _, ⟨_, h3, rfl⟩, h.size _, ?_⟩
    rw [← blobPolynomial_values h, lincomb_values h (blobPolynomial_degree h _)]

theorem proof_ok (h : SoundSetup S τ) {blob zb : Bytes} {r : ProofAndEvaluation} {z : Fr} {q : Fr[X]}
    (hz : Encodes zb z)
    (hq : blobPolynomial S blob - C ((blobPolynomial S blob).eval z) = (X - C z) * q) :
    compute_kzg_proof S blob zb = .ok r ↔ ValidBlob blob ∧
      r.proof = S.point_to_bytes (commitTo S τ q) ∧
      r.evaluation = bytes_from_bls_field ((blobPolynomial S blob).eval z) := by
  unfold compute_kzg_proof ckzg_compute_kzg_proof
  simp only [Bls.bind_ok, pure_ok, expect_ok, sized_ok (n := BYTES_PER_PROOF), sized_ok (n := 32),
    scalar_ok]
  obtain ⟨rp, re⟩ := r
  constructor
  · rintro ⟨b, hb, zb', ⟨-, rfl⟩, ⟨π, y⟩, ⟨p, hp, z', hz', e⟩, _, ⟨-, rfl⟩, _, ⟨-, rfl⟩, e'⟩
    obtain rfl := (sized_ok.1 hb).2
    obtain ⟨h1, rfl⟩ := polynomial_ok.1 ⟨hb, hp⟩
    have : z' = z := ZMod.val_injective _ (hz'.symm.trans hz.2)
    subst this
    rw [impl_eq h _ _ hq] at e
    cases e; cases e'
    exact ⟨h1, rfl, rfl⟩
  · rintro ⟨h1, rfl, rfl⟩
    obtain ⟨h2, h3⟩ := (polynomial_ok (p := elements blob)).2 ⟨h1, rfl⟩
    refine ⟨blob, h2, zb, ⟨hz.1, rfl⟩,
      (commitTo S τ q, bytes_from_bls_field ((blobPolynomial S blob).eval z)),
      ⟨_, h3, z, hz.2, by rw [impl_eq h _ _ hq]⟩, _,
      ⟨h.size _, rfl⟩, _, ⟨(bytes_from_encodes _).1, rfl⟩, rfl⟩

theorem proof_point {blob zb : Bytes} {r : ProofAndEvaluation}
    (e : compute_kzg_proof S blob zb = .ok r) : ∃ z, Encodes zb z := by
  unfold compute_kzg_proof ckzg_compute_kzg_proof at e
  simp only [Bls.bind_ok, sized_ok (n := 32), scalar_ok] at e
  obtain ⟨b, -, zb', ⟨hl, rfl⟩, _, ⟨p, -, z, hz, -⟩, -⟩ := e
  exact ⟨z, hl, hz⟩

theorem blob_proof_ok (h : SoundSetup S τ) {blob cb π : Bytes} {c : S.G1} {q : Fr[X]}
    (hc : S.point_to_bytes c = cb)
    (hq : blobPolynomial S blob - C ((blobPolynomial S blob).eval (S.challenge blob c)) =
      (X - C (S.challenge blob c)) * q) :
    compute_blob_kzg_proof S blob cb = .ok π ↔ ValidBlob blob ∧
      π = S.point_to_bytes (commitTo S τ q) := by
  unfold compute_blob_kzg_proof ckzg_compute_blob_kzg_proof
  simp only [Bls.bind_ok, pure_ok, expect_ok, sized_ok (n := BYTES_PER_PROOF), sized_ok (n := 48),
    point_ok h]
  constructor
  · rintro ⟨b, hb, cb', ⟨-, rfl⟩, p, ⟨c', hc', e, he, rfl⟩, -, rfl⟩
    obtain rfl := (sized_ok.1 hb).2
    obtain ⟨h1, rfl⟩ := polynomial_ok.1 ⟨hb, he⟩
    have : c' = c := by
      have h2 := (h.encoding cb' c').2 hc'
      rw [(h.encoding cb' c).2 hc] at h2
      exact (Option.some.inj h2).symm
    subst this
    exact ⟨h1, by rw [impl_eq h _ _ hq]⟩
  · rintro ⟨h1, rfl⟩
    obtain ⟨h2, h3⟩ := (polynomial_ok (p := elements blob)).2 ⟨h1, rfl⟩
    refine ⟨blob, h2, cb, ⟨hc ▸ h.size _, rfl⟩, _, ⟨c, hc, _, h3, rfl⟩, ?_⟩
    rw [impl_eq h _ _ hq]
    exact ⟨h.size _, rfl⟩

theorem blob_proof_point (h : SoundSetup S τ) {blob cb π : Bytes}
    (e : compute_blob_kzg_proof S blob cb = .ok π) : ∃ c, S.point_to_bytes c = cb := by
  unfold compute_blob_kzg_proof ckzg_compute_blob_kzg_proof at e
  simp only [Bls.bind_ok, expect_ok, sized_ok (n := 48), point_ok h] at e
  obtain ⟨b, -, cb', ⟨-, rfl⟩, p, ⟨c', hc', -⟩, -⟩ := e
  exact ⟨c', hc'⟩

theorem verify_ok (h : SoundSetup S τ) {cb zb yb pb : Bytes} :
    verify_kzg_proof S cb zb yb pb = .ok () ↔ ∃ c z y π, S.point_to_bytes c = cb ∧
      Encodes zb z ∧ Encodes yb y ∧ S.point_to_bytes π = pb ∧ Proves S τ c z y π := by
  unfold verify_kzg_proof ckzg_verify_kzg_proof
  simp only [Bls.bind_ok, pure_ok, expect_ok, sized_ok, accepted_ok, point_ok h, scalar_ok]
  constructor
  · rintro ⟨_, ⟨hz, rfl⟩, _, ⟨hy, rfl⟩, _, ⟨-, rfl⟩, _, ⟨-, rfl⟩, _, ⟨c, hc, z, hz', y, hy', π, hπ,
      rfl⟩, hv⟩
    exact ⟨c, z, y, π, hc, ⟨hz, hz'⟩, ⟨hy, hy'⟩, hπ, (verify_impl h c z y π).1 hv⟩
  · rintro ⟨c, z, y, π, hc, hz, hy, hπ, hv⟩
    exact ⟨_, ⟨hz.1, rfl⟩, _, ⟨hy.1, rfl⟩, _, ⟨hc ▸ h.size _, rfl⟩, _, ⟨hπ ▸ h.size _, rfl⟩, _,
      ⟨c, hc, z, hz.2, y, hy.2, π, hπ, rfl⟩, (verify_impl h c z y π).2 hv⟩

/-- What is checked of one blob -/
structure ItemOf (S : Settings) (x : Bytes × Bytes × Bytes) (it : Item S) : Prop where
  valid : ValidBlob x.1
  commitment : S.point_to_bytes it.commitment = x.2.1
  proof : S.point_to_bytes it.proof = x.2.2
  z : it.z = S.challenge x.1 it.commitment
  y : it.y = (blobPolynomial S x.1).eval it.z

theorem verify_blob_ok (h : SoundSetup S τ) {blob cb pb : Bytes} :
    verify_blob_kzg_proof S blob cb pb = .ok () ↔ ∃ it, ItemOf S (blob, cb, pb) it ∧
      Proves S τ it.commitment it.z it.y it.proof := by
  unfold verify_blob_kzg_proof ckzg_verify_blob_kzg_proof
  simp only [Bls.bind_ok, pure_ok, expect_ok, sized_ok (n := 48), accepted_ok, point_ok h]
  constructor
  · rintro ⟨b, hb, _, ⟨-, rfl⟩, _, ⟨-, rfl⟩, _, ⟨c, hc, p, hp, π, hπ, rfl⟩, hv⟩
    obtain rfl := (sized_ok.1 hb).2
    obtain ⟨h1, rfl⟩ := polynomial_ok.1 ⟨hb, hp⟩
    refine ⟨⟨c, S.challenge b c, (blobPolynomial S b).eval (S.challenge b c), π⟩,
      ⟨h1, hc, hπ, rfl, rfl⟩, (verify_impl h _ _ _ _).1 ?_⟩
    rw [← hv, ← blobPolynomial_values h, evaluate_values h (blobPolynomial_degree h _)]
  · rintro ⟨⟨c, z, y, π⟩, ⟨h1, hc, hπ, hz, hy⟩, hv⟩
    simp only at h1 hc hπ hz hy hv
    subst hz hy
    obtain ⟨h2, h3⟩ := (polynomial_ok (p := elements blob)).2 ⟨h1, rfl⟩
    refine ⟨blob, h2, _, ⟨hc ▸ h.size _, rfl⟩, _, ⟨hπ ▸ h.size _, rfl⟩, _, ⟨c, hc, _, h3, π, hπ,
      rfl⟩, ?_⟩
    rw [← blobPolynomial_values h, evaluate_values h (blobPolynomial_degree h _)]
    exact (verify_impl h _ _ _ _).2 hv

/-! ## Batches -/

theorem item_ok (h : SoundSetup S τ) {x : Bytes × Bytes × Bytes} {it : Item S} :
    (sized BYTES_PER_BLOB x.1 = .ok x.1 ∧ batch_item S x = .ok it) ↔ ItemOf S x it := by
  obtain ⟨blob, cb, pb⟩ := x
  unfold batch_item
  simp only [Bls.bind_ok, pure_ok, point_ok h]
  constructor
  · rintro ⟨hb, c, hc, p, hp, π, hπ, rfl⟩
    obtain ⟨h1, rfl⟩ := polynomial_ok.1 ⟨hb, hp⟩
    refine ⟨h1, hc, hπ, rfl, ?_⟩
    rw [← blobPolynomial_values h, evaluate_values h (blobPolynomial_degree h _)]
  · rintro ⟨h1, hc, hπ, hz, hy⟩
    obtain ⟨h2, h3⟩ := (polynomial_ok (p := elements blob)).2 ⟨h1, rfl⟩
    refine ⟨h2, it.commitment, hc, _, h3, it.proof, hπ, ?_⟩
    obtain ⟨c, z, y, π⟩ := it
    simp only at hz hy ⊢
    subst hz hy
    rw [← blobPolynomial_values h, evaluate_values h (blobPolynomial_degree h _)]

/-- How far a proof is from proving its value -/
def defect (S : Settings) (τ : Fr) (x : Item S) : S.G1 :=
  (τ - x.z) • x.proof - (x.commitment - x.y • S.generator1)

theorem defect_zero {x : Item S} :
    defect S τ x = 0 ↔ Proves S τ x.commitment x.z x.y x.proof := sub_eq_zero

theorem powersum_defect (r : Fr) (items : List (Item S)) : powersum S r (defect S τ) items =
    τ • powersum S r (·.proof) items -
      (powersum S r (fun x => x.commitment - x.y • S.generator1) items +
        powersum S r (fun x => x.z • x.proof) items) := by
  induction items with
  | nil => simp [powersum]
  | cons x rest ih =>
    simp only [powersum, ih, defect, sub_smul, smul_add, smul_sub, smul_smul, mul_comm r τ]
    abel

theorem verify_batch_impl (h : SoundSetup S τ) (items : List (Item S)) :
    verify_kzg_proof_batch S items = true ↔
      powersum S (S.batch_challenge (items.map (·.commitment)) (items.map (·.z))
        (items.map (·.y)) (items.map (·.proof))) (defect S τ) items = 0 := by
  unfold verify_kzg_proof_batch
  rw [decide_eq_true_eq, h.tau, h.scalar, pairing_injective h, powersum_defect, sub_eq_zero]

theorem mapM_sized {n : Nat} {bs bs' : List Bytes} :
    bs.mapM (sized n) = .ok bs' ↔ (∀ b ∈ bs, b.length = n) ∧ bs' = bs := by
  rw [Bls.mapM_ok]
  induction bs generalizing bs' with
  | nil => simp
  | cons b bs ih =>
    cases bs' with
    | nil => simp
    | cons b' bs' =>
      rw [List.forall₂_cons, sized_ok, ih]
      simp only [List.mem_cons, forall_eq_or_imp, List.cons.injEq]
      tauto

theorem mapM_expect {n : Nat} {bs bs' : List Bytes} :
    (bs.mapM fun b => expect (sized n b)) = .ok bs' ↔ (∀ b ∈ bs, b.length = n) ∧ bs' = bs := by
  rw [Bls.mapM_ok]
  simp only [expect_ok]
  rw [← Bls.mapM_ok, mapM_sized]

theorem items_ok (h : SoundSetup S τ) {l : List (Bytes × Bytes × Bytes)} {items : List (Item S)} :
    ((∀ x ∈ l, x.1.length = BYTES_PER_BLOB) ∧ l.mapM (batch_item S) = .ok items) ↔
      List.Forall₂ (ItemOf S) l items := by
  rw [Bls.mapM_ok]
  induction l generalizing items with
  | nil => simp
  | cons x l ih =>
    cases items with
    | nil => simp
    | cons it items =>
      rw [List.forall₂_cons, List.forall₂_cons, ← ih, ← item_ok h, sized_ok]
      simp only [List.mem_cons, forall_eq_or_imp, and_true]
      tauto

/-- Exactly when a batch is accepted -/
theorem batch_ok (h : SoundSetup S τ) {bs cs ps : List Bytes} :
    verify_blob_kzg_proof_batch S bs cs ps = .ok () ↔
      bs.length = cs.length ∧ bs.length = ps.length ∧
      ∃ items, List.Forall₂ (ItemOf S) (bs.zip (cs.zip ps)) items ∧
        powersum S (S.batch_challenge (items.map (·.commitment)) (items.map (·.z))
          (items.map (·.y)) (items.map (·.proof))) (defect S τ) items = 0 := by
  unfold verify_blob_kzg_proof_batch
  simp only [Bls.bind_ok, mapM_sized, mapM_expect, accepted_ok]
  constructor
  · rintro ⟨_, ⟨hb, rfl⟩, _, ⟨hc, rfl⟩, _, ⟨hp, rfl⟩, res, e, rfl⟩
    unfold ckzg_verify_blob_kzg_proof_batch at e
    split at e
    · cases e
    · next h1 =>
      split at e
      · cases e
      · next h2 =>
        refine ⟨not_not.1 h1, not_not.1 h2, ?_⟩
        split at e
        · exact ⟨[], by simp, rfl⟩
        · next b c p =>
          have hv : verify_blob_kzg_proof S b c p = .ok () := by
            unfold verify_blob_kzg_proof
            simp only [Bls.bind_ok, expect_ok, accepted_ok]
            exact ⟨b, sized_ok.2 ⟨hb b (by simp), rfl⟩, c, sized_ok.2 ⟨hc c (by simp), rfl⟩, p,
              sized_ok.2 ⟨hp p (by simp), rfl⟩, true, e, rfl⟩
          obtain ⟨it, hi, hv⟩ := (verify_blob_ok h).1 hv
          refine ⟨[it], by simpa using hi, ?_⟩
          simp [powersum, defect_zero.2 hv]
        · simp only [Bls.bind_ok, pure_ok] at e
          obtain ⟨items, hi, hv⟩ := e
          refine ⟨items, (items_ok h).1 ⟨?_, hi⟩, (verify_batch_impl h items).1 hv.symm⟩
          intro x hx
          exact hb x.1 (List.of_mem_zip hx).1
  · rintro ⟨h1, h2, items, hi, hv⟩
    obtain ⟨h3, h4⟩ := (items_ok h).2 hi
    have hb : ∀ b ∈ bs, b.length = BYTES_PER_BLOB := by
      intro b hb
      obtain ⟨i, hi', rfl⟩ := List.getElem_of_mem hb
      have hlt : i < (bs.zip (cs.zip ps)).length := by simp; omega
      have := h3 _ (List.getElem_mem hlt)
      simpa using this
    have hcp : ∀ x ∈ bs.zip (cs.zip ps), x.2.1.length = 48 ∧ x.2.2.length = 48 := by
      intro x hx
      obtain ⟨i, hlt, rfl⟩ := List.getElem_of_mem hx
      have := (List.forall₂_iff_get.1 hi).2 i hlt (by rw [← hi.length_eq]; exact hlt)
      have h5 := this.commitment
      have h6 := this.proof
      simp only [List.get_eq_getElem] at h5 h6
      exact ⟨by rw [← h5]; exact h.size _, by rw [← h6]; exact h.size _⟩
    have hc : ∀ b ∈ cs, b.length = 48 := by
      intro b hb
      obtain ⟨i, hi', rfl⟩ := List.getElem_of_mem hb
      have hlt : i < (bs.zip (cs.zip ps)).length := by simp; omega
      have := (hcp _ (List.getElem_mem hlt)).1
      simpa using this
    have hp : ∀ b ∈ ps, b.length = 48 := by
      intro b hb
      obtain ⟨i, hi', rfl⟩ := List.getElem_of_mem hb
      have hlt : i < (bs.zip (cs.zip ps)).length := by simp; omega
      have := (hcp _ (List.getElem_mem hlt)).2
      simpa using this
    refine ⟨_, ⟨hb, rfl⟩, _, ⟨hc, rfl⟩, _, ⟨hp, rfl⟩, true, ?_, rfl⟩
    unfold ckzg_verify_blob_kzg_proof_batch
    rw [if_neg (not_not.2 h1), if_neg (not_not.2 h2)]
    split
    · rfl
    · next b c p =>
      cases hi with
      | cons hi hi' =>
        cases hi'
        next it =>
        have hv : defect S τ it = 0 := by simpa [powersum] using hv
        have := (verify_blob_ok h).2 ⟨it, hi, defect_zero.1 hv⟩
        unfold verify_blob_kzg_proof at this
        simp only [Bls.bind_ok, expect_ok, accepted_ok] at this
        obtain ⟨_, e1, _, e2, _, e3, _, e4, rfl⟩ := this
        obtain rfl := (sized_ok.1 e1).2
        obtain rfl := (sized_ok.1 e2).2
        obtain rfl := (sized_ok.1 e3).2
        exact e4
    · rw [Bls.bind_ok]
      exact ⟨items, h4, by rw [pure_ok]; exact ((verify_batch_impl h items).2 hv).symm⟩

/-! ### Few challenges hide a wrong proof -/

/-- The combination of a batch, as a polynomial in the challenge -/
noncomputable def powerPolynomial (φ : Module.Dual Fr S.G1) (f : Item S → S.G1) :
    List (Item S) → Fr[X]
  | [] => 0
  | x :: rest => C (φ (f x)) + X * powerPolynomial φ f rest

theorem powerPolynomial_eval (φ : Module.Dual Fr S.G1) (f : Item S → S.G1) (items : List (Item S))
    (r : Fr) : (powerPolynomial φ f items).eval r = φ (powersum S r f items) := by
  induction items with
  | nil => simp [powerPolynomial, powersum]
  | cons x rest ih => simp [powerPolynomial, powersum, ih]

theorem powerPolynomial_degree (φ : Module.Dual Fr S.G1) (f : Item S → S.G1)
    (items : List (Item S)) : (powerPolynomial φ f items).degree < items.length := by
  induction items with
  | nil => simp [powerPolynomial]
  | cons x rest ih =>
    rw [powerPolynomial]
    refine (degree_add_le _ _).trans_lt (max_lt (degree_C_le.trans_lt ?_) ?_)
    · exact_mod_cast Nat.succ_pos _
    · by_cases h0 : powerPolynomial φ f rest = 0
      · rw [h0, mul_zero, degree_zero]; exact bot_lt_iff_ne_bot.2 (by simp)
      · rw [degree_mul, degree_X, degree_eq_natDegree h0] at *
        have : (powerPolynomial φ f rest).natDegree < rest.length := by exact_mod_cast ih
        have h2 : 1 + (powerPolynomial φ f rest).natDegree < (x :: rest).length := by
          rw [List.length_cons]; omega
        exact_mod_cast h2

theorem powerPolynomial_zero {φ : Module.Dual Fr S.G1} {f : Item S → S.G1} {items : List (Item S)}
    (h : powerPolynomial φ f items = 0) : ∀ x ∈ items, φ (f x) = 0 := by
  induction items with
  | nil => simp
  | cons x rest ih =>
    have h0 : φ (f x) = 0 := by
      have := congrArg (eval 0) h
      simpa [powerPolynomial] using this
    rw [powerPolynomial, h0, C_0, zero_add] at h
    intro y hy
    rcases List.mem_cons.1 hy with rfl | hy
    · exact h0
    · exact ih ((mul_eq_zero.1 h).resolve_left X_ne_zero) y hy

theorem powersum_sound {f : Item S → S.G1} {items : List (Item S)} {R : Finset Fr}
    (h : ∀ r ∈ R, powersum S r f items = 0) (hR : items.length ≤ R.card) :
    ∀ x ∈ items, f x = 0 := by
  intro x hx
  rw [← Module.forall_dual_apply_eq_zero_iff Fr]
  intro φ
  refine powerPolynomial_zero (items := items) ?_ x hx
  refine eq_zero_of_degree_lt_of_eval_finset_eq_zero R ?_ ?_
  · exact (powerPolynomial_degree φ f items).trans_le (by exact_mod_cast hR)
  · intro r hr
    rw [powerPolynomial_eval, h r hr, map_zero]

theorem sound_withChallenge (h : SoundSetup S τ) (r : Fr) : SoundSetup (withChallenge S r) τ where
  distinct := h.distinct
  unity := h.unity
  lagrange := h.lagrange
  tau := h.tau
  add_left := h.add_left
  scalar := h.scalar
  nondegenerate := h.nondegenerate
  size := h.size
  encoding := h.encoding

/-- An item of the changed setup -/
def conv {r : Fr} (it : Item (withChallenge S r)) : Item S :=
  ⟨it.commitment, it.z, it.y, it.proof⟩

theorem conv_powersum {r : Fr} (items : List (Item (withChallenge S r))) :
    powersum (withChallenge S r) r (defect (withChallenge S r) τ) items =
      powersum S r (defect S τ) (items.map conv) := by
  induction items with
  | nil => rfl
  | cons x rest ih =>
    rw [powersum, List.map_cons, powersum, ih]
    rfl

theorem conv_itemOf {r : Fr} {x : Bytes × Bytes × Bytes} {it : Item (withChallenge S r)}
    (h : ItemOf (withChallenge S r) x it) : ItemOf S x (conv it) :=
  ⟨h.valid, h.commitment, h.proof, h.z, h.y.trans (by unfold blobPolynomial; rfl)⟩

theorem itemOf_unique (h : SoundSetup S τ) {x : Bytes × Bytes × Bytes} {a b : Item S}
    (ha : ItemOf S x a) (hb : ItemOf S x b) : a = b := by
  have key : ∀ {p q : S.G1} {e : Bytes}, S.point_to_bytes p = e → S.point_to_bytes q = e → p = q := by
    intro p q e hp hq
    have h1 := (h.encoding e p).2 hp
    rw [(h.encoding e q).2 hq] at h1
    exact (Option.some.inj h1).symm
  have h1 := key ha.commitment hb.commitment
  have h2 := key ha.proof hb.proof
  have h3 : a.z = b.z := by rw [ha.z, hb.z, h1]
  have h4 : a.y = b.y := by rw [ha.y, hb.y, h3]
  obtain ⟨_, _, _, _⟩ := a
  obtain ⟨_, _, _, _⟩ := b
  simp only at h1 h2 h3 h4
  rw [h1, h2, h3, h4]

theorem items_unique (h : SoundSetup S τ) {l : List (Bytes × Bytes × Bytes)} {a b : List (Item S)}
    (ha : List.Forall₂ (ItemOf S) l a) (hb : List.Forall₂ (ItemOf S) l b) : a = b := by
  induction ha generalizing b with
  | nil => cases hb; rfl
  | cons h1 _ ih =>
    cases hb with
    | cons h2 hb => rw [itemOf_unique h h1 h2, ih hb]

theorem batch_few (h : SoundSetup S τ) {bs cs ps : List Bytes} {R : Finset Fr}
    (hR : ∀ r ∈ R, verify_blob_kzg_proof_batch (withChallenge S r) bs cs ps = .ok ())
    (hc : bs.length ≤ R.card) (hn : bs ≠ []) :
    ∀ x ∈ bs.zip (cs.zip ps), verify_blob_kzg_proof S x.1 x.2.1 x.2.2 = .ok () := by
  have hpos : 0 < R.card := Nat.lt_of_lt_of_le (List.length_pos_iff.2 hn) hc
  obtain ⟨r₀, hr₀⟩ := Finset.card_pos.1 hpos
  have get : ∀ r ∈ R, ∃ items, List.Forall₂ (ItemOf S) (bs.zip (cs.zip ps)) items ∧
      powersum S r (defect S τ) items = 0 := by
    intro r hr
    obtain ⟨-, -, items, hi, hv⟩ := (batch_ok (sound_withChallenge h r)).1 (hR r hr)
    refine ⟨items.map conv, ?_, ?_⟩
    · rw [List.forall₂_map_right_iff]
      exact hi.imp fun _ _ => conv_itemOf
    · rw [← conv_powersum]; exact hv
  obtain ⟨items, hi, -⟩ := get r₀ hr₀
  have hall : ∀ r ∈ R, powersum S r (defect S τ) items = 0 := by
    intro r hr
    obtain ⟨items', hi', hv⟩ := get r hr
    rw [items_unique h hi hi']
    exact hv
  have hlen : items.length ≤ R.card := by
    rw [← hi.length_eq]
    refine le_trans ?_ hc
    simp
  have hz := powersum_sound hall hlen
  intro x hx
  obtain ⟨i, hlt, rfl⟩ := List.getElem_of_mem hx
  have hlt' : i < items.length := by rw [← hi.length_eq]; exact hlt
  have hit := (List.forall₂_iff_get.1 hi).2 i hlt hlt'
  exact (verify_blob_ok h).2 ⟨_, hit, defect_zero.1 (hz _ (List.get_mem items ⟨i, hlt'⟩))⟩

/-! ## Completeness -/

theorem batch_complete (h : SoundSetup S τ) {bs cs ps : List Bytes} (h1 : bs.length = cs.length)
    (h2 : bs.length = ps.length)
    (hv : ∀ x ∈ bs.zip (cs.zip ps), verify_blob_kzg_proof S x.1 x.2.1 x.2.2 = .ok ()) :
    verify_blob_kzg_proof_batch S bs cs ps = .ok () := by
  refine (batch_ok h).2 ⟨h1, h2, ?_⟩
  have : ∀ l : List (Bytes × Bytes × Bytes),
      (∀ x ∈ l, verify_blob_kzg_proof S x.1 x.2.1 x.2.2 = .ok ()) →
      ∃ items, List.Forall₂ (ItemOf S) l items ∧ ∀ it ∈ items, defect S τ it = 0 := by
    intro l
    induction l with
    | nil => exact fun _ => ⟨[], .nil, by simp⟩
    | cons x l ih =>
      intro hx
      obtain ⟨items, hi, hz⟩ := ih fun y hy => hx y (by simp [hy])
      obtain ⟨it, h3, h4⟩ := (verify_blob_ok h).1 (hx x (by simp))
      exact ⟨it :: items, .cons h3 hi, by
        intro y hy
        rcases List.mem_cons.1 hy with rfl | hy
        · exact defect_zero.2 h4
        · exact hz y hy⟩
  obtain ⟨items, hi, hz⟩ := this _ hv
  refine ⟨items, hi, ?_⟩
  generalize S.batch_challenge _ _ _ _ = r
  clear hi
  induction items with
  | nil => rfl
  | cons x rest ih =>
    rw [powersum, hz x (by simp), ih fun y hy => hz y (by simp [hy]), smul_zero, add_zero]

/-- Every valid blob has a commitment and a proof, and they are accepted. -/
theorem blob_complete (h : SoundSetup S τ) {blob : Bytes} (hb : ValidBlob blob) :
    ∃ c π, commit_and_prove_blob S blob = .ok (c, π) ∧ blob_to_kzg_commitment S blob = .ok c ∧
      compute_blob_kzg_proof S blob c = .ok π ∧ verify_blob_kzg_proof S blob c π = .ok () := by
  set p := blobPolynomial S blob with hp
  set c := commitTo S τ p with hc
  obtain ⟨q, hq⟩ := exists_quotient p (S.challenge blob c)
  have h1 : blob_to_kzg_commitment S blob = .ok (S.point_to_bytes c) :=
    (commitment_ok h).2 ⟨hb, rfl⟩
  have h2 : compute_blob_kzg_proof S blob (S.point_to_bytes c) =
      .ok (S.point_to_bytes (commitTo S τ q)) :=
    (blob_proof_ok h rfl hq).2 ⟨hb, rfl⟩
  refine ⟨_, _, ?_, h1, h2, (verify_blob_ok h).2 ⟨⟨c, S.challenge blob c, p.eval (S.challenge blob c),
    commitTo S τ q⟩, ⟨hb, rfl, rfl, rfl, rfl⟩, quotient_proves hq⟩⟩
  unfold commit_and_prove_blob
  simp only [Bls.bind_ok, pure_ok]
  exact ⟨_, h1, _, h2, rfl⟩

theorem commit_and_prove_ok {blob c π : Bytes} : commit_and_prove_blob S blob = .ok (c, π) ↔
    blob_to_kzg_commitment S blob = .ok c ∧ compute_blob_kzg_proof S blob c = .ok π := by
  unfold commit_and_prove_blob
  simp only [Bls.bind_ok, pure_ok, Prod.mk.injEq]
  constructor
  · rintro ⟨_, h1, _, h2, rfl, rfl⟩; exact ⟨h1, h2⟩
  · rintro ⟨h1, h2⟩; exact ⟨_, h1, _, h2, rfl, rfl⟩

theorem bundle_ok (h : SoundSetup S τ) {blobs : List Bytes} {b : BlobsBundle} :
    bundle S blobs = .ok b ↔ (∀ blob ∈ blobs, ValidBlob blob) ∧ b.blobs = blobs ∧
      List.Forall₂ (fun blob c => blob_to_kzg_commitment S blob = .ok c) blobs b.commitments ∧
      List.Forall₂ (fun x π => compute_blob_kzg_proof S x.1 x.2 = .ok π)
        (blobs.zip b.commitments) b.proofs := by
  have split : ∀ (l : List Bytes) (r : List (Bytes × Bytes)),
      List.Forall₂ (fun blob x => commit_and_prove_blob S blob = .ok x) l r ↔
        List.Forall₂ (fun blob c => blob_to_kzg_commitment S blob = .ok c) l (r.map Prod.fst) ∧
        List.Forall₂ (fun x π => compute_blob_kzg_proof S x.1 x.2 = .ok π)
          (l.zip (r.map Prod.fst)) (r.map Prod.snd) := by
    intro l
    induction l with
    | nil => intro r; cases r <;> simp
    | cons a l ih =>
      intro r
      cases r with
      | nil => simp
      | cons x r =>
        obtain ⟨c, π⟩ := x
        simp only [List.forall₂_cons, List.map_cons, List.zip_cons_cons, ih, commit_and_prove_ok]
        exact and_and_and_comm
  unfold bundle
  simp only [Bls.bind_ok, pure_ok, Bls.mapM_ok]
  obtain ⟨bc, bp, bb⟩ := b
  constructor
  · rintro ⟨r, hr, _, -, e⟩
    rw [List.unzip_eq_map] at e
    cases e
    obtain ⟨h1, h2⟩ := (split _ _).1 hr
    refine ⟨?_, rfl, h1, h2⟩
    intro blob hb
    obtain ⟨i, hlt, rfl⟩ := List.getElem_of_mem hb
    have hc := (List.forall₂_iff_get.1 h1).2 i hlt (by rw [← h1.length_eq]; exact hlt)
    exact ((commitment_ok h).1 hc).1
  · rintro ⟨hv, rfl, h1, h2⟩
    have hl1 : bb.length = bc.length := h1.length_eq
    have hl2 : bb.length = bp.length := by
      have : (bb.zip bc).length = bp.length := h2.length_eq
      rw [List.length_zip] at this
      omega
    have e1 : (bc.zip bp).map Prod.fst = bc := List.map_fst_zip (by omega)
    have e2 : (bc.zip bp).map Prod.snd = bp := List.map_snd_zip (by omega)
    refine ⟨bc.zip bp, (split _ _).2 (by rw [e1, e2]; exact ⟨h1, h2⟩), (), ?_, ?_⟩
    · rw [List.unzip_eq_map]
      dsimp only
      rw [e1, e2]
      refine batch_complete h hl1 (by omega) ?_
      intro x hx
      obtain ⟨i, hlt, rfl⟩ := List.getElem_of_mem hx
      have hi : i < bb.length := by
        have := hlt
        simp only [List.length_zip] at this
        omega
      have g1 := (List.forall₂_iff_get.1 h1).2 i hi (by dsimp only; omega)
      have g2 := (List.forall₂_iff_get.1 h2).2 i (by simp; omega) (by dsimp only; omega)
      simp only [List.get_eq_getElem, List.getElem_zip] at g1 g2 ⊢
      obtain ⟨c, π, -, g3, g4, g5⟩ := blob_complete h (hv _ (List.getElem_mem hi))
      rw [g1] at g3
      cases g3
      rw [g2] at g4
      cases g4
      exact g5
    · rw [List.unzip_eq_map, e1, e2]

end Library

end Verif.Kzg
