import Verif.Proofs.Keys

/-! # C57, C61: key derivation and keystores -/

namespace Verif.Props

open Spec Blobs Keys

/-! ## C57 -/

/-- **C57** Whenever `hkdf_mod_r` returns, its result is a nonzero scalar below the group order. -/
theorem C57_range (P : Primitives) (fuel : Nat) (input : List UInt8) (k : Nat)
    (h : hkdf_mod_r P fuel input = .ok k) : 0 < k ∧ k < MODULUS :=
  firstNonzero_range (hkdf_mod_r_first h)

/-- **C57** It is the value the standard defines: the first candidate that is not zero. -/
theorem C57_first (P : Primitives) (input : List UInt8) (k : Nat) :
    (∃ fuel, hkdf_mod_r P fuel input = .ok k) ↔ FirstNonzero P input k := by
  constructor
  · rintro ⟨fuel, h⟩; exact hkdf_mod_r_first h
  · rintro ⟨i, h1, h2, h3⟩
    exact ⟨i + 1, hkdf_mod_r_iff.2 ⟨i, Nat.lt_succ_self i, h1, h2, h3⟩⟩

/-- **C57** It returns within `n` rounds exactly when one of the first `n` candidates is not zero;
otherwise it goes on (it never fails in another way). -/
theorem C57_terminates (P : Primitives) (n : Nat) (input : List UInt8) :
    hkdf_mod_r P n input = .error .diverges ↔ ∀ i < n, keyCandidate P input i = 0 := by
  constructor
  · intro h
    by_contra hc
    have hex : ∃ i, i < n ∧ keyCandidate P input i ≠ 0 := by
      by_contra hno
      exact hc fun i hi => by
        by_contra h0
        exact hno ⟨i, hi, h0⟩
    classical
    have hf := Nat.find_spec hex
    have hmin : ∀ j < Nat.find hex, keyCandidate P input j = 0 := by
      intro j hj
      by_contra h0
      exact Nat.find_min hex hj ⟨Nat.lt_trans hj hf.1, h0⟩
    have := hkdf_mod_r_iff.2 ⟨Nat.find hex, hf.1, rfl, hf.2, hmin⟩
    rw [this] at h
    cases h
  · intro h
    cases h' : hkdf_mod_r P n input with
    | error e => rw [hkdf_mod_r_error h']
    | ok k =>
      obtain ⟨i, hi, h1, h2, -⟩ := hkdf_mod_r_iff.1 h'
      exact absurd (h1.symm.trans (h i hi)) h2

/-- **C57** So generating keys never panics on a key the library refuses. -/
theorem C57_no_panic (P : Primitives) (fuel : Nat) (seed : List UInt8) (start stop : Nat) :
    generate P fuel seed start stop ≠ .error .panic := by
  intro h
  unfold generate at h
  cases h1 : derive_master_sk P fuel seed with
  | error e =>
    rw [h1] at h
    cases h
    exact absurd (hkdf_mod_r_error h1) (by decide)
  | ok root =>
    rw [h1] at h
    cases h2 : (List.range' start (stop - start)).mapM (derive_validator_keys P fuel root) with
    | error e =>
      dsimp only [Bind.bind, Except.bind] at h
      rw [h2] at h
      cases h
      obtain ⟨i, -, hi⟩ := mapM_error h2
      exact absurd (derive_validator_keys_error (C57_range P fuel seed root h1) hi) (by decide)
    | ok ps =>
      dsimp only [Bind.bind, Except.bind] at h
      rw [h2] at h
      cases h

/-- **C57** The keys generated are those of the indices asked for, in order: the withdrawal key of
index `i` is derived from the seed along `m/12381/3600/i/0`, the signing key along
`m/12381/3600/i/0/0`, and each is labelled with its path. -/
theorem C57_generate (P : Primitives) (fuel : Nat) (seed : List UInt8) (start stop : Nat)
    (signing withdrawal : List KeyPair)
    (h : generate P fuel seed start stop = .ok (signing, withdrawal)) :
    signing.length = stop - start ∧ withdrawal.length = stop - start ∧
    ∃ root, FirstNonzero P seed root ∧ ∀ k < stop - start, ∃ s w,
      signing[k]? = some s ∧ withdrawal[k]? = some w ∧
      DerivedAlong P root [12381, 3600, start + k, 0] w.private_key ∧
      DerivedAlong P root [12381, 3600, start + k, 0, 0] s.private_key ∧
      w.path = "m/12381/3600/".toList ++ Text.decimal (start + k) ++ "/0".toList ∧
      s.path = "m/12381/3600/".toList ++ Text.decimal (start + k) ++ "/0/0".toList := by
  unfold generate at h
  cases h1 : derive_master_sk P fuel seed with
  | error e => rw [h1] at h; cases h
  | ok root =>
    rw [h1] at h
    dsimp only [Bind.bind, Except.bind] at h
    cases h2 : (List.range' start (stop - start)).mapM (derive_validator_keys P fuel root) with
    | error e => rw [h2] at h; cases h
    | ok ps =>
      rw [h2] at h
      have hl := (mapM_ok h2).1
      have hi := (mapM_ok h2).2
      rw [List.length_range'] at hl
      have hu : ps.unzip = (signing, withdrawal) := Except.ok.inj h
      rw [List.unzip_eq_map, Prod.mk.injEq] at hu
      obtain ⟨rfl, rfl⟩ := hu
      refine ⟨by simpa using hl, by simpa using hl, root, hkdf_mod_r_first h1, ?_⟩
      intro k hk
      have hk' : k < ps.length := by omega
      have hp : ps[k]? = some ps[k] := List.getElem?_eq_getElem hk'
      have hr : (List.range' start (stop - start))[k]? = some (start + k) := by
        rw [List.getElem?_range' hk, Nat.one_mul]
      obtain ⟨e1, e2, e3, e4⟩ := derive_validator_keys_ok (C57_range P fuel seed root h1)
        (hi k _ _ hr hp)
      refine ⟨ps[k].1, ps[k].2, ?_, ?_, e1, e2, e4, e3⟩
      · rw [List.getElem?_map, hp]; rfl
      · rw [List.getElem?_map, hp]; rfl

/-- **C57** Different indices have different paths. -/
theorem C57_paths_distinct (i j : Nat) (hi : i < 2 ^ 32) (hj : j < 2 ^ 32) (rest : List Char)
    (h : "m/12381/3600/".toList ++ Text.decimal i ++ rest =
      "m/12381/3600/".toList ++ Text.decimal j ++ rest) : i = j := by
  rw [List.append_assoc, List.append_assoc] at h
  have h' := List.append_cancel_right (List.append_cancel_left h)
  have h1 := Text.parse_decimal (n := i) (by omega)
  rw [h', Text.parse_decimal (n := j) (by omega)] at h1
  exact (Option.some.inj h1).symm

/-- Primitives for examples: hashes that depend on their input, and an identity cipher. -/
def toyPrims : Primitives where
  hash x := List.replicate 31 0 ++ [UInt8.ofNat (x.length + (x.map UInt8.toNat).sum)]
  hkdf s i _ n := (List.replicate n 0).set (n - 1)
    (if s.getLast? = some 131 then 0 else UInt8.ofNat (i.length % 7 + 1))
  scrypt x s _ _ _ := List.replicate 31 1 ++ [UInt8.ofNat (x.length + s.length)]
  aes _ b := (b ++ List.replicate 16 0).take 16
  nfkd := id
  is_control c := c.toNat < 32
  hash_length x := by simp
  hkdf_length s i _ n := by simp
  scrypt_length x s _ _ _ := by simp
  aes_length _ b := by simp

/-- Here the second candidate is the first that is not zero, and key generation runs through. -/
example : keyCandidate toyPrims [1, 2, 3] 0 = 0 ∧ keyCandidate toyPrims [1, 2, 3] 1 = 5 ∧
    hkdf_mod_r toyPrims 2 [1, 2, 3] = .ok 5 := by decide +kernel

example : (generate toyPrims 5 [1, 2, 3] 7 9).toOption.map (fun r => r.1.map (·.private_key)) =
    some [6, 6] := by decide +kernel

/-! ## C61 -/

/-- **C61** A keystore is opened by its passphrase, following the standard, and gives the secret key
it was made for. The exception are initialisation vectors whose last eight bytes are all `0xff`: the
code uses a 64-bit counter where the standard has a 128-bit one. -/
theorem C61_keystore_opens_partial (P : Primitives) (pair : KeyPair) (passphrase : List Char)
    (salt iv : List UInt8) (n r p : Nat) (hk : pair.private_key < MODULUS)
    (hiv : iv.length = 16) (hc : iv.drop 8 ≠ List.replicate 8 0xff) :
    openKeystore P (Keystore.new P pair passphrase salt iv n r p) passphrase =
      some (toBeBytes 32 pair.private_key) ∧
    ofBeBytes (toBeBytes 32 pair.private_key) = pair.private_key := by
  have hd : (iv.drop 8).length = 8 := by rw [List.length_drop, hiv]
  have hlow : ofBeBytes (iv.drop 8) + 1 < 2 ^ 64 := by
    have h1 := ofBe_lt (iv.drop 8)
    rw [hd] at h1
    have e : (256 : Nat) ^ 8 = 2 ^ 64 := by decide
    have h2 : ofBeBytes (iv.drop 8) ≠ 2 ^ 64 - 1 := by
      intro h
      refine hc (ofBe_inj (by rw [hd]; rfl) ?_)
      rw [h]; decide
    omega
  constructor
  · unfold openKeystore Keystore.new Kdf.new_with_salt_and_params Cipher.new_with_iv
      Kdf.encryption_key Kdf.checksum_salt checksum
    dsimp only
    rw [if_pos rfl]
    congr 1
    unfold apply_keystream
    rw [toBe_length]
    have hb0 := block_eq (P := P) (key := (P.scrypt ((P.nfkd passphrase).filter
      fun c => !P.is_control c) salt n r p).take 16) (iv := iv) (i := 0) hiv (by omega)
    have hb1 := block_eq (P := P) (key := (P.scrypt ((P.nfkd passphrase).filter
      fun c => !P.is_control c) salt n r p).take 16) (iv := iv) (i := 1) hiv hlow
    have hr : List.range (32 / 16 + 1) = [0, 1, 2] := by decide
    rw [hr]
    simp only [List.map_cons, List.map_nil, List.flatten_cons, List.flatten_nil, List.append_nil,
      hb0, hb1]
    generalize (P.scrypt _ salt n r p).take 16 = key
    have hl : (ctrBlock P key iv 0 ++ ctrBlock P key iv 1).length = 32 := by
      unfold ctrBlock; simp [P.aes_length]
    rw [← List.append_assoc, zipWith_append_of_le (rest := keystream_block P key iv 2)
      (ks := ctrBlock P key iv 0 ++ ctrBlock P key iv 1)
      (xs := toBeBytes 32 pair.private_key) (Nat.le_of_eq (by rw [hl, toBe_length]))]
    exact zipXor_zipXor (Nat.le_of_eq (by rw [hl, toBe_length]))
  · rw [ofBe_toBe, Nat.mod_eq_of_lt (Nat.lt_trans hk modulus_lt)]

/-- **C61** With such an initialisation vector a keystore can be unreadable. -/
theorem C61_counter_wraps : ∃ (P : Primitives) (pair : KeyPair) (passphrase : List Char)
    (salt iv : List UInt8) (n r p : Nat), pair.private_key < MODULUS ∧ iv.length = 16 ∧
    openKeystore P (Keystore.new P pair passphrase salt iv n r p) passphrase ≠
      some (toBeBytes 32 pair.private_key) :=
  ⟨toyPrims, ⟨5, []⟩, [], [], List.replicate 8 0 ++ List.replicate 8 0xff, 1, 1, 1,
    by decide, by decide, by decide +kernel⟩

/-- Any other initialisation vector will do. -/
example : (List.replicate 16 (0x55 : UInt8)).drop 8 ≠ List.replicate 8 0xff ∧
    openKeystore toyPrims (Keystore.new toyPrims ⟨77, []⟩ ['a', 'b'] [1] (List.replicate 16 0x55)
      1 1 1) ['a', 'b'] = some (toBeBytes 32 77) ∧
    openKeystore toyPrims (Keystore.new toyPrims ⟨77, []⟩ ['a', 'b'] [1] (List.replicate 16 0x55)
      1 1 1) ['a'] = none := by
  decide +kernel

end Verif.Props
