import Mathlib.GroupTheory.OrderOfElement
import Verif.Proofs.Kzg
import Verif.Props.Blobs

/-! # C85: KZG commitments and proofs -/

namespace Verif.Props

open Kzg Spec Polynomial

/-- **C85** Commitments exist for exactly the valid blobs. The commitment of a blob is the one to the
polynomial whose values at the roots of unity are the elements of the blob. -/
theorem C85_commitment (S : Settings) (τ : Fr) (h : SoundSetup S τ) (blob c : Bytes) :
    blob_to_kzg_commitment S blob = .ok c ↔
      ValidBlob blob ∧ ∃ p, Represents S blob p ∧ S.point_to_bytes (commitTo S τ p) = c := by
  rw [commitment_ok h]
  simp only [represents_iff h, exists_eq_left]

/-- **C85** There is exactly one such polynomial. -/
theorem C85_polynomial (S : Settings) (τ : Fr) (h : SoundSetup S τ) (blob : Bytes) :
    ∃! p, Represents S blob p := by
  simp only [represents_iff h]
  exact ⟨_, rfl, fun _ e => e⟩

/-- **C85** The value that is computed at a point is the value of the polynomial of the blob, also at
the roots of unity, and the proof is the commitment to the quotient by `X - z`. -/
theorem C85_evaluation (S : Settings) (τ : Fr) (h : SoundSetup S τ) (blob zb : Bytes)
    (r : ProofAndEvaluation) :
    compute_kzg_proof S blob zb = .ok r ↔ ValidBlob blob ∧ ∃ z p q, Encodes zb z ∧
      Represents S blob p ∧ p - C (p.eval z) = (X - C z) * q ∧ Encodes r.evaluation (p.eval z) ∧
      r.proof = S.point_to_bytes (commitTo S τ q) := by
  constructor
  · intro e
    obtain ⟨z, hz⟩ := proof_point e
    obtain ⟨q, hq⟩ := exists_quotient (blobPolynomial S blob) z
    obtain ⟨h1, h2, h3⟩ := (proof_ok h hz hq).1 e
    exact ⟨h1, z, _, q, hz, (represents_iff h).2 rfl, hq, h3 ▸ bytes_from_encodes _, h2⟩
  · rintro ⟨h1, z, p, q, hz, hp, hq, he, hr⟩
    have hp := (represents_iff h).1 hp
    rw [hp] at hq he
    exact (proof_ok h hz hq).2 ⟨h1, hr, encodes_unique he (bytes_from_encodes _)⟩

/-- **C85** It is computed for every valid blob and every point. -/
theorem C85_evaluates (S : Settings) (τ : Fr) (h : SoundSetup S τ) (blob zb : Bytes) (z : Fr)
    (hb : ValidBlob blob) (hz : Encodes zb z) : ∃ r, compute_kzg_proof S blob zb = .ok r := by
  obtain ⟨q, hq⟩ := exists_quotient (blobPolynomial S blob) z
  exact ⟨⟨_, _⟩, (proof_ok h hz hq).2 ⟨hb, rfl, rfl⟩⟩

/-- **C85** What is computed is accepted. -/
theorem C85_point_accepted (S : Settings) (τ : Fr) (h : SoundSetup S τ) (blob zb c : Bytes)
    (r : ProofAndEvaluation) (hc : blob_to_kzg_commitment S blob = .ok c)
    (hr : compute_kzg_proof S blob zb = .ok r) :
    verify_kzg_proof S c zb r.evaluation r.proof = .ok () := by
  obtain ⟨-, hc⟩ := (commitment_ok h).1 hc
  obtain ⟨z, hz⟩ := proof_point hr
  obtain ⟨q, hq⟩ := exists_quotient (blobPolynomial S blob) z
  obtain ⟨h1, h2, h3⟩ := (proof_ok h hz hq).1 hr
  exact (verify_ok h).2 ⟨_, z, _, commitTo S τ q, hc, hz, h3 ▸ bytes_from_encodes _, h2.symm,
    quotient_proves hq⟩

/-- **C85** A proof is accepted exactly if everything is well formed and the proof is right. -/
theorem C85_verify (S : Settings) (τ : Fr) (h : SoundSetup S τ) (cb zb yb pb : Bytes) :
    verify_kzg_proof S cb zb yb pb = .ok () ↔ ∃ c z y π, S.point_to_bytes c = cb ∧
      Encodes zb z ∧ Encodes yb y ∧ S.point_to_bytes π = pb ∧ Proves S τ c z y π :=
  verify_ok h

/-- **C85** To have two values accepted for one commitment at one point takes a solution of the
problem that is assumed to be hard: dividing the generator by `τ - z`. -/
theorem C85_binding (S : Settings) (τ : Fr) (h : SoundSetup S τ) (cb zb yb yb' pb pb' : Bytes)
    (h1 : verify_kzg_proof S cb zb yb pb = .ok ()) (h2 : verify_kzg_proof S cb zb yb' pb' = .ok ())
    (hne : yb ≠ yb') : ∃ z y y' π π', Encodes zb z ∧ Encodes yb y ∧ Encodes yb' y' ∧
      S.point_to_bytes π = pb ∧ S.point_to_bytes π' = pb' ∧
      (τ - z) • ((y' - y)⁻¹ • (π - π')) = S.generator1 := by
  obtain ⟨c, z, y, π, hc, hz, hy, hπ, hv⟩ := (verify_ok h).1 h1
  obtain ⟨c', z', y', π', hc', hz', hy', hπ', hv'⟩ := (verify_ok h).1 h2
  have e1 : c' = c := by
    have := (h.encoding cb c').2 hc'
    rw [(h.encoding cb c).2 hc] at this
    exact (Option.some.inj this).symm
  have e2 : z' = z := ZMod.val_injective _ (hz'.2.symm.trans hz.2)
  rw [e1, e2] at hv'
  have hyy : y' - y ≠ 0 := by
    intro e
    rw [sub_eq_zero] at e
    exact hne (encodes_unique hy (e ▸ hy'))
  refine ⟨z, y, y', π, π', hz, hy, hy', hπ, hπ', ?_⟩
  rw [smul_comm, smul_sub, show (τ - z) • π = c - y • S.generator1 from hv,
    show (τ - z) • π' = c - y' • S.generator1 from hv', sub_sub_sub_cancel_left, ← sub_smul,
    smul_smul, inv_mul_cancel₀ hyy, one_smul]

/-- **C85** The proof of a blob is checked at the challenge of the blob and the commitment. -/
theorem C85_verify_blob (S : Settings) (τ : Fr) (h : SoundSetup S τ) (blob cb pb : Bytes) :
    verify_blob_kzg_proof S blob cb pb = .ok () ↔ ValidBlob blob ∧ ∃ c π p, Represents S blob p ∧
      S.point_to_bytes c = cb ∧ S.point_to_bytes π = pb ∧
      Proves S τ c (S.challenge blob c) (p.eval (S.challenge blob c)) π := by
  rw [verify_blob_ok h]
  constructor
  · rintro ⟨⟨c, z, y, π⟩, ⟨h1, h2, h3, h4, h5⟩, h6⟩
    simp only at h1 h2 h3 h4 h5 h6
    exact ⟨h1, c, π, _, (represents_iff h).2 rfl, h2, h3, by rw [h5, h4] at h6; exact h6⟩
  · rintro ⟨h1, c, π, p, hp, h2, h3, h4⟩
    have hp := (represents_iff h).1 hp
    rw [hp] at h4
    exact ⟨⟨c, _, _, π⟩, ⟨h1, h2, h3, rfl, rfl⟩, h4⟩

/-- **C85** Every valid blob has a commitment and a proof, and they are accepted. -/
theorem C85_blob_accepted (S : Settings) (τ : Fr) (h : SoundSetup S τ) (blob : Bytes)
    (hb : ValidBlob blob) : ∃ c π, blob_to_kzg_commitment S blob = .ok c ∧
      compute_blob_kzg_proof S blob c = .ok π ∧ verify_blob_kzg_proof S blob c π = .ok () := by
  obtain ⟨c, π, -, h1⟩ := blob_complete h hb
  exact ⟨c, π, h1⟩

/-- **C85** A batch of accepted proofs is accepted, in particular the empty one. -/
theorem C85_batch (S : Settings) (τ : Fr) (h : SoundSetup S τ) (blobs commitments proofs : List Bytes)
    (h1 : blobs.length = commitments.length) (h2 : blobs.length = proofs.length)
    (hv : ∀ x ∈ blobs.zip (commitments.zip proofs),
      verify_blob_kzg_proof S x.1 x.2.1 x.2.2 = .ok ()) :
    verify_blob_kzg_proof_batch S blobs commitments proofs = .ok () :=
  batch_complete h h1 h2 hv

/-- **C85** A batch with a proof that would not be accepted alone is accepted for fewer outcomes of
the hash that combines the proofs than it has blobs. -/
theorem C85_batch_sound (S : Settings) (τ : Fr) (h : SoundSetup S τ)
    (blobs commitments proofs : List Bytes) (R : Finset Fr)
    (hR : ∀ r ∈ R,
      verify_blob_kzg_proof_batch (withChallenge S r) blobs commitments proofs = .ok ())
    (hv : ∃ x ∈ blobs.zip (commitments.zip proofs),
      verify_blob_kzg_proof S x.1 x.2.1 x.2.2 ≠ .ok ()) : R.card < blobs.length := by
  obtain ⟨x, hx, hx'⟩ := hv
  by_contra hc
  refine hx' (batch_few h hR (Nat.le_of_not_lt hc) ?_ x hx)
  rintro rfl
  cases hx

/-- **C85** A batch of one is accepted exactly if its proof is. -/
theorem C85_batch_one (S : Settings) (τ : Fr) (h : SoundSetup S τ) (blob c π : Bytes) :
    verify_blob_kzg_proof_batch S [blob] [c] [π] = .ok () ↔
      verify_blob_kzg_proof S blob c π = .ok () := by
  constructor
  · intro e
    obtain ⟨-, -, items, h3, h4⟩ := (batch_ok h).1 e
    cases h3 with
    | cons h3 h5 =>
      cases h5
      next it =>
      have hz : defect S τ it = 0 := by simpa [powersum] using h4
      exact (verify_blob_ok h).2 ⟨it, h3, sub_eq_zero.1 (by exact hz)⟩
  · intro e
    exact batch_complete h rfl rfl (by simpa using e)

/-- **C85** Lists of different lengths are refused. -/
theorem C85_batch_lengths (S : Settings) (τ : Fr) (h : SoundSetup S τ)
    (blobs commitments proofs : List Bytes)
    (hl : blobs.length ≠ commitments.length ∨ blobs.length ≠ proofs.length) :
    ∃ e, verify_blob_kzg_proof_batch S blobs commitments proofs = .error e := by
  cases e : verify_blob_kzg_proof_batch S blobs commitments proofs with
  | error err => exact ⟨err, rfl⟩
  | ok u =>
    obtain ⟨h1, h2, -⟩ := (batch_ok h).1 e
    rcases hl with hl | hl
    · exact absurd h1 hl
    · exact absurd h2 hl

/-! ### Panics -/

theorem bind_calm {α β : Type} {x : Except Err α} {f : α → Except Err β} (hx : x ≠ .error .panic)
    (hf : ∀ a, x = .ok a → f a ≠ .error .panic) : (x >>= f) ≠ .error .panic := by
  cases x with
  | error e => exact fun h => hx (by simpa [bind, Except.bind] using h)
  | ok a => exact hf a rfl

theorem sized_calm (n : Nat) (b : Bytes) : sized n b ≠ .error .panic := by
  unfold sized; split <;> simp

theorem expect_calm {n : Nat} {b : Bytes} (h : b.length = n) :
    expect (sized n b) ≠ .error .panic := by
  simp [sized, h, expect]

theorem field_calm (b : Bytes) : bytes_to_bls_field b ≠ .error .panic := by
  unfold bytes_to_bls_field; split <;> simp

theorem g1_calm (S : Settings) (b : Bytes) : bytes_to_g1 S b ≠ .error .panic := by
  unfold bytes_to_g1; split <;> simp

theorem polynomial_calm (b : Bytes) : blob_to_polynomial b ≠ .error .panic := by
  unfold blob_to_polynomial; split <;> simp

theorem accepted_calm (b : Bool) : accepted b ≠ .error .panic := by cases b <;> simp [accepted]

theorem mapM_calm {α β : Type} {f : α → Except Err β} {l : List α}
    (h : ∀ a ∈ l, f a ≠ .error .panic) : l.mapM f ≠ .error .panic := by
  intro e
  obtain ⟨a, ha, hf⟩ := Keys.mapM_error e
  exact h a ha hf

/-- **C85** Nothing panics, for blobs and points of any size, valid or not. (Commitments and proofs
have 48 bytes by their type.) -/
theorem C85_no_panic (S : Settings) (τ : Fr) (h : SoundSetup S τ) (blob zb yb c π : Bytes)
    (blobs commitments proofs : List Bytes) (hc : c.length = 48) (hπ : π.length = 48)
    (hcs : ∀ c ∈ commitments, c.length = 48) (hπs : ∀ π ∈ proofs, π.length = 48) :
    blob_to_kzg_commitment S blob ≠ .error .panic ∧
    compute_kzg_proof S blob zb ≠ .error .panic ∧
    compute_blob_kzg_proof S blob c ≠ .error .panic ∧
    verify_kzg_proof S c zb yb π ≠ .error .panic ∧
    verify_blob_kzg_proof S blob c π ≠ .error .panic ∧
    verify_blob_kzg_proof_batch S blobs commitments proofs ≠ .error .panic := by
  have single : ∀ b c p, ckzg_verify_blob_kzg_proof S b c p ≠ .error .panic := fun b c p =>
    bind_calm (g1_calm S _) fun _ _ => bind_calm (polynomial_calm _) fun _ _ =>
      bind_calm (g1_calm S _) fun _ _ => by simp [pure, Except.pure]
  refine ⟨?_, ?_, ?_, ?_, ?_, ?_⟩
  · exact bind_calm (sized_calm _ _) fun _ _ => bind_calm
      (bind_calm (polynomial_calm _) fun _ _ => by simp [pure, Except.pure])
      fun _ _ => expect_calm (h.size _)
  · refine bind_calm (sized_calm _ _) fun _ _ => bind_calm (sized_calm _ _) fun _ _ => bind_calm
      (bind_calm (polynomial_calm _) fun _ _ => bind_calm (field_calm _) fun _ _ => by
        simp [pure, Except.pure])
      fun x hx => bind_calm (expect_calm (h.size _)) fun _ _ => bind_calm (expect_calm ?_)
        fun _ _ => by simp [pure, Except.pure]
    obtain ⟨π, y⟩ := x
    unfold ckzg_compute_kzg_proof at hx
    simp only [Bls.bind_ok, pure_ok] at hx
    obtain ⟨p, -, z, -, e⟩ := hx
    rw [show y = _ from congrArg Prod.snd e]
    exact (bytes_from_encodes _).1
  · exact bind_calm (sized_calm _ _) fun _ _ => bind_calm (expect_calm hc) fun _ _ => bind_calm
      (bind_calm (g1_calm S _) fun _ _ => bind_calm (polynomial_calm _) fun _ _ => by
        simp [pure, Except.pure])
      fun _ _ => expect_calm (h.size _)
  · exact bind_calm (sized_calm _ _) fun _ _ => bind_calm (sized_calm _ _) fun _ _ =>
      bind_calm (expect_calm hc) fun _ _ => bind_calm (expect_calm hπ) fun _ _ => bind_calm
        (bind_calm (g1_calm S _) fun _ _ => bind_calm (field_calm _) fun _ _ =>
          bind_calm (field_calm _) fun _ _ => bind_calm (g1_calm S _) fun _ _ => by
            simp [pure, Except.pure])
        fun _ _ => accepted_calm _
  · exact bind_calm (sized_calm _ _) fun _ _ => bind_calm (expect_calm hc) fun _ _ =>
      bind_calm (expect_calm hπ) fun _ _ => bind_calm (single _ _ _) fun _ _ => accepted_calm _
  · refine bind_calm (mapM_calm fun b _ => sized_calm _ b) fun _ _ =>
      bind_calm (mapM_calm fun c hc => expect_calm (hcs c hc)) fun _ _ =>
      bind_calm (mapM_calm fun c hc => expect_calm (hπs c hc)) fun _ _ => bind_calm ?_
        fun _ _ => accepted_calm _
    unfold ckzg_verify_blob_kzg_proof_batch
    split
    · simp
    · split
      · simp
      · split
        · simp
        · exact single _ _ _
        · refine bind_calm (mapM_calm fun x _ => ?_) fun _ _ => by simp [pure, Except.pure]
          exact bind_calm (g1_calm S _) fun _ _ => bind_calm (polynomial_calm _) fun _ _ =>
            bind_calm (g1_calm S _) fun _ _ => by simp [pure, Except.pure]

/-! ### Bundles -/

/-- **C85** `ec blobs bundle` succeeds exactly for valid blobs. The bundle has the blobs unchanged and
for each, in order, its commitment and its proof. -/
theorem C85_bundle (S : Settings) (τ : Fr) (h : SoundSetup S τ) (blobs : List Bytes)
    (b : BlobsBundle) :
    bundle S blobs = .ok b ↔ (∀ blob ∈ blobs, ValidBlob blob) ∧ b.blobs = blobs ∧
      List.Forall₂ (fun blob c => blob_to_kzg_commitment S blob = .ok c) blobs b.commitments ∧
      List.Forall₂ (fun x π => compute_blob_kzg_proof S x.1 x.2 = .ok π)
        (blobs.zip b.commitments) b.proofs :=
  bundle_ok h

/-- **C85** A bundle is accepted as a batch, and every blob in it alone. -/
theorem C85_bundle_accepted (S : Settings) (τ : Fr) (h : SoundSetup S τ) (blobs : List Bytes)
    (b : BlobsBundle) (hb : bundle S blobs = .ok b) :
    verify_blob_kzg_proof_batch S b.blobs b.commitments b.proofs = .ok () ∧
    ∀ x ∈ b.blobs.zip (b.commitments.zip b.proofs),
      verify_blob_kzg_proof S x.1 x.2.1 x.2.2 = .ok () := by
  obtain ⟨hv, hb', hc, hp⟩ := (bundle_ok h).1 hb
  refine ⟨?_, ?_⟩
  · unfold bundle at hb
    simp only [Bls.bind_ok, pure_ok] at hb
    obtain ⟨_, _, u, hv, rfl⟩ := hb
    exact hv
  · rw [hb']
    clear hb hb'
    generalize b.commitments = cs at hc hp ⊢
    generalize b.proofs = ps at hp ⊢
    induction hc generalizing ps with
    | nil => simp
    | cons h1 h2 ih =>
      rw [List.zip_cons_cons] at hp
      cases hp with
      | cons h3 h4 =>
      rw [List.zip_cons_cons, List.zip_cons_cons, List.forall_mem_cons]
      refine ⟨?_, ih (fun y hy => hv y (by simp [hy])) _ h4⟩
      obtain ⟨c, π, -, h5, h6, h7⟩ := blob_complete h (hv _ List.mem_cons_self)
      have e := Except.ok.inj (h1.symm.trans h5)
      subst e
      have e := Except.ok.inj (h3.symm.trans h6)
      subst e
      exact h7

/-- **C85** What `ec blobs encode` makes can be bundled. -/
theorem C85_packed (S : Settings) (τ : Fr) (h : SoundSetup S τ) (data : List UInt8)
    (framing : Blobs.Framing) (blobs : List Bytes) (he : Blobs.encode data framing = .ok blobs) :
    ∃ b, bundle S blobs = .ok b := by
  have hv : ∀ blob ∈ blobs, ValidBlob blob := by
    cases framing with
    | Raw => exact C43_valid data blobs he
    | Sized =>
      unfold Blobs.encode at he
      simp only [Bls.bind_ok] at he
      obtain ⟨header, -, he⟩ := he
      exact C43_valid _ blobs he
  have : ∀ l : List Bytes, (∀ blob ∈ l, ValidBlob blob) → ∃ cs ps : List Bytes,
      List.Forall₂ (fun blob c => blob_to_kzg_commitment S blob = .ok c) l cs ∧
      List.Forall₂ (fun x π => compute_blob_kzg_proof S x.1 x.2 = .ok π) (l.zip cs) ps := by
    intro l
    induction l with
    | nil => exact fun _ => ⟨[], [], .nil, .nil⟩
    | cons x l ih =>
      intro hx
      obtain ⟨cs, ps, h1, h2⟩ := ih fun y hy => hx y (by simp [hy])
      obtain ⟨c, π, -, h3, h4, -⟩ := blob_complete h (hx x (by simp))
      exact ⟨c :: cs, π :: ps, .cons h3 h1, .cons h4 h2⟩
  obtain ⟨cs, ps, h1, h2⟩ := this blobs hv
  exact ⟨⟨cs, ps, blobs⟩, (bundle_ok h).2 ⟨hv, rfl, h1, h2⟩⟩

/-! ### A setup -/

/-- A root of unity of order 4096 -/
def omega : Fr := ((7 : Nat) : Fr) ^ ((Blobs.MODULUS - 1) / 4096)

theorem omega_order : orderOf omega = 4096 := by
  have h1 : ¬ omega ^ 2 ^ 11 = 1 := by
    unfold omega
    rw [← pow_mul]
    exact pow_ne_one (by decide) (by decide +kernel) (by decide +kernel)
  have h2 : omega ^ 2 ^ (11 + 1) = 1 := by
    unfold omega
    rw [← pow_mul]
    exact pow_eq_one (by decide +kernel) (by decide +kernel)
  exact orderOf_eq_prime_pow h1 h2

theorem omega_unity (i : Nat) : (omega ^ i) ^ 4096 = 1 := by
  rw [← pow_mul, mul_comm, pow_mul, ← omega_order, pow_orderOf_eq_one, one_pow]

theorem omega_injective : Function.Injective fun i : Fin 4096 => omega ^ i.val := by
  intro i j e
  have := pow_injOn_Iio_orderOf (x := omega) (by rw [omega_order]; exact i.isLt)
    (by rw [omega_order]; exact j.isLt) e
  exact Fin.ext this

/-- 48 bytes of a scalar -/
def toyBytes (x : Fr) : Bytes := List.replicate 16 0 ++ bytes_from_bls_field x

open Classical in
/-- The scalar of 48 bytes -/
noncomputable def toyPoint (b : Bytes) : Option Fr :=
  if h : ∃ x, toyBytes x = b then some h.choose else none

/-- A setup over the scalars themselves, in which discrete logarithms are easy -/
noncomputable def toySetup (τ : Fr) : Settings where
  G1 := Fr
  G2 := Fr
  T := Fr
  roots := fun i => omega ^ i.val
  lagrange := fun i =>
    (Lagrange.basis (Finset.univ : Finset (Fin FIELD_ELEMENTS_PER_BLOB))
      (fun j => omega ^ j.val) i).eval τ
  generator1 := 1
  generator2 := 1
  tau2 := τ
  pairing := fun a b => a * b
  point_to_bytes := toyBytes
  point_from_bytes := toyPoint
  challenge := fun blob c => (Blobs.ofBeBytes blob : Fr) + c
  batch_challenge := fun _ _ _ ps => ps.sum

theorem toyBytes_injective : Function.Injective toyBytes := by
  intro a b e
  have := List.append_cancel_left e
  have h1 := (bytes_from_encodes a).2
  rw [this, (bytes_from_encodes b).2] at h1
  exact (ZMod.val_injective _ h1).symm

theorem toyBytes_length (x : Fr) : (toyBytes x).length = 48 := by
  unfold toyBytes
  rw [List.length_append, List.length_replicate, (bytes_from_encodes x).1]

theorem toyPoint_bytes (b : Bytes) (p : Fr) : toyPoint b = some p ↔ toyBytes p = b := by
  unfold toyPoint
  constructor
  · intro e
    split at e
    · next h => cases e; exact h.choose_spec
    · cases e
  · intro e
    have h : ∃ x, toyBytes x = b := ⟨p, e⟩
    rw [dif_pos h]
    exact congrArg some (toyBytes_injective (h.choose_spec.trans e.symm))

attribute [local irreducible] toyPoint toyBytes in
/-- There are sound setups, with every secret. -/
theorem toySetup_sound (τ : Fr) : SoundSetup (toySetup τ) τ where
  distinct := omega_injective
  unity := by
    intro i
    exact omega_unity i.val
  lagrange := fun _ => (mul_one (M := Fr) _).symm
  tau := (mul_one τ).symm
  add_left := fun p p' q => add_mul (R := Fr) p p' q
  scalar := by
    intro (p : Fr) (x : Fr)
    change p * (x * 1) = (x * p) * 1
    ring
  nondegenerate := fun p h => (mul_one (M := Fr) p).symm.trans h
  size := toyBytes_length
  encoding := toyPoint_bytes

/-- Data is encoded, bundled and verified in it. -/
example (τ : Fr) : ∃ blobs b, Blobs.encode [1, 2, 3] .Sized = .ok blobs ∧
    bundle (toySetup τ) blobs = .ok b ∧ b.blobs = blobs ∧
    verify_blob_kzg_proof_batch (toySetup τ) b.blobs b.commitments b.proofs = .ok () := by
  obtain ⟨blobs, h1⟩ := C43_packs (0 :: Blobs.beBytes32 3 ++ [1, 2, 3])
  have he : Blobs.encode [1, 2, 3] .Sized = .ok blobs := by
    rw [← h1]
    simp [Blobs.encode, Blobs.sized_header, Blobs.SIZED_FRAMING_VERSION, pure, Except.pure, bind,
      Except.bind]
  obtain ⟨b, hb⟩ := C85_packed _ τ (toySetup_sound τ) _ _ _ he
  exact ⟨blobs, b, he, hb, ((C85_bundle _ τ (toySetup_sound τ) _ _).1 hb).2.1,
    (C85_bundle_accepted _ τ (toySetup_sound τ) _ _ hb).1⟩

theorem replicate_chunk (w : Bytes) (hw : w.length = 32) (n i : Nat) (hi : i < n) :
    ((List.replicate n w).flatten.drop (i * 32)).take 32 = w := by
  induction n generalizing i with
  | zero => omega
  | succ n ih =>
    rw [List.replicate_succ, List.flatten_cons]
    cases i with
    | zero => rw [Nat.zero_mul, List.drop_zero, ← hw, List.take_left]
    | succ i =>
      rw [show (i + 1) * 32 = w.length + i * 32 by omega, ← List.drop_drop, List.drop_left]
      exact ih i (by omega)

/-- A blob of ones is the constant polynomial: it has value one everywhere. -/
example (τ : Fr) (zb : Bytes) (z : Fr) (hz : Encodes zb z) : ∃ r,
    compute_kzg_proof (toySetup τ)
      (List.replicate 4096 (List.replicate 31 (0 : UInt8) ++ [1])).flatten zb = .ok r ∧
    Encodes r.evaluation 1 := by
  have h1 := replicate_chunk (List.replicate 31 (0 : UInt8) ++ [1]) rfl 4096
  have h2 : (List.replicate 4096 (List.replicate 31 (0 : UInt8) ++ [1])).flatten.length
      = 4096 * 32 := by
    rw [List.length_flatten, List.map_replicate, List.sum_replicate]; rfl
  generalize (List.replicate 4096 (List.replicate 31 (0 : UInt8) ++ [1])).flatten = blob at h1 h2 ⊢
  have hv : ValidBlob blob := ⟨h2, fun k hk => by rw [h1 k hk]; decide +kernel⟩
  obtain ⟨r, hr⟩ := C85_evaluates _ τ (toySetup_sound τ) blob zb z hv hz
  refine ⟨r, hr, ?_⟩
  obtain ⟨-, z', p, q, -, hp, -, he, -⟩ := (C85_evaluation _ τ (toySetup_sound τ) _ _ _).1 hr
  have : Represents (toySetup τ) blob 1 := by
    refine ⟨?_, fun i => ?_⟩
    · rw [degree_one]; exact_mod_cast (by decide : 0 < 4096)
    · rw [h1 i i.isLt, show Blobs.ofBeBytes (List.replicate 31 (0 : UInt8) ++ [1]) = 1 by decide +kernel]
      simp
  have hu := (C85_polynomial _ τ (toySetup_sound τ) blob).unique hp this
  rw [hu, eval_one] at he
  exact he

end Verif.Props
