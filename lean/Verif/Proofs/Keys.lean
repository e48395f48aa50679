import Verif.Spec.Keys
import Verif.Proofs.Text

/-! # Proofs about key derivation and keystores -/

namespace Verif.Keys

open Spec Blobs

/-! ## Big-endian bytes -/

theorem ofBe_foldl (acc : Nat) (bs : List UInt8) :
    bs.foldl (fun n b => 256 * n + b.toNat) acc = acc * 256 ^ bs.length + ofBeBytes bs := by
  unfold ofBeBytes
  induction bs generalizing acc with
  | nil => simp
  | cons b bs ih =>
    rw [List.foldl_cons, List.foldl_cons, ih, ih (256 * 0 + b.toNat), List.length_cons, Nat.pow_succ]
    ring

theorem ofBe_cons (b : UInt8) (bs : List UInt8) :
    ofBeBytes (b :: bs) = b.toNat * 256 ^ bs.length + ofBeBytes bs := by
  rw [ofBeBytes, List.foldl_cons, ofBe_foldl]
  simp

theorem ofBe_append (xs ys : List UInt8) :
    ofBeBytes (xs ++ ys) = ofBeBytes xs * 256 ^ ys.length + ofBeBytes ys := by
  rw [ofBeBytes, List.foldl_append, ofBe_foldl]
  rfl

theorem ofBe_lt (bs : List UInt8) : ofBeBytes bs < 256 ^ bs.length := by
  induction bs with
  | nil => decide
  | cons b bs ih =>
    have hb : b.toNat < 256 := b.toNat_lt
    rw [ofBe_cons, List.length_cons, Nat.pow_succ]
    have : b.toNat * 256 ^ bs.length ≤ 255 * 256 ^ bs.length :=
      Nat.mul_le_mul_right _ (by omega)
    omega

theorem toBe_length (n x : Nat) : (toBeBytes n x).length = n := by
  unfold toBeBytes; simp

theorem toBe_succ (n x : Nat) :
    toBeBytes (n + 1) x = UInt8.ofNat (x / 256 ^ n) :: toBeBytes n x := by
  unfold toBeBytes
  rw [List.range_succ_eq_map, List.map_cons, List.map_map]
  congr 1
  apply List.map_congr_left
  intro k _
  simp only [Function.comp_apply]
  congr 3
  omega

theorem ofBe_toBe (n x : Nat) : ofBeBytes (toBeBytes n x) = x % 256 ^ n := by
  induction n with
  | zero => simp [toBeBytes, ofBeBytes, Nat.mod_one]
  | succ n ih =>
    have e := Nat.mod_mul (x := x) (a := 256 ^ n) (b := 256)
    have e8 : (2 : Nat) ^ 8 = 256 := rfl
    rw [toBe_succ, ofBe_cons, ih, toBe_length, UInt8.toNat_ofNat', e8, Nat.pow_succ, e,
      Nat.mul_comm, Nat.add_comm]

theorem ofBe_inj {xs ys : List UInt8} (hl : xs.length = ys.length)
    (h : ofBeBytes xs = ofBeBytes ys) : xs = ys := by
  induction xs generalizing ys with
  | nil => exact (List.eq_nil_of_length_eq_zero hl.symm).symm
  | cons x xs ih =>
    cases ys with
    | nil => simp at hl
    | cons y ys =>
      simp only [List.length_cons, Nat.add_right_cancel_iff] at hl
      rw [ofBe_cons, ofBe_cons, hl] at h
      have h1 := ofBe_lt xs
      have h2 := ofBe_lt ys
      rw [hl] at h1
      have hp : 0 < 256 ^ ys.length := Nat.pow_pos (by decide)
      have e1 : (x.toNat * 256 ^ ys.length + ofBeBytes xs) / 256 ^ ys.length = x.toNat := by
        rw [Nat.mul_comm, Nat.mul_add_div hp, Nat.div_eq_of_lt h1, Nat.add_zero]
      have e2 : (y.toNat * 256 ^ ys.length + ofBeBytes ys) / 256 ^ ys.length = y.toNat := by
        rw [Nat.mul_comm, Nat.mul_add_div hp, Nat.div_eq_of_lt h2, Nat.add_zero]
      have hx : x.toNat = y.toNat := by rw [← e1, h, e2]
      have hxy : x = y := UInt8.toNat_inj.1 hx
      subst hxy
      rw [ih hl (by omega)]

theorem toBe_ofBe (bs : List UInt8) : toBeBytes bs.length (ofBeBytes bs) = bs := by
  refine ofBe_inj (toBe_length _ _) ?_
  rw [ofBe_toBe, Nat.mod_eq_of_lt (ofBe_lt bs)]

/-! ## `hkdf_mod_r` -/

theorem modulus_lt : MODULUS < 256 ^ 32 := by decide

theorem low_bytes {k : Nat} (h : k < MODULUS) : ofBeBytes ((toBeBytes L k).drop 16) = k := by
  have h1 := ofBe_append ((toBeBytes L k).take 16) ((toBeBytes L k).drop 16)
  rw [List.take_append_drop, ofBe_toBe] at h1
  have hl : ((toBeBytes L k).drop 16).length = 32 := by
    rw [List.length_drop, toBe_length]; rfl
  have hlt := ofBe_lt ((toBeBytes L k).drop 16)
  rw [hl] at h1 hlt
  have hk : k < 256 ^ 32 := Nat.lt_trans h modulus_lt
  have hk' : k < 256 ^ L := Nat.lt_trans hk (by decide)
  rw [Nat.mod_eq_of_lt hk'] at h1
  generalize ofBeBytes ((toBeBytes L k).take 16) = a at *
  generalize ofBeBytes ((toBeBytes L k).drop 16) = b at *
  generalize 256 ^ 32 = m at *
  rcases Nat.eq_zero_or_pos a with rfl | ha
  · omega
  · have : m ≤ a * m := Nat.le_mul_of_pos_left _ ha
    omega

theorem hkdf_loop_iff {P : Primitives} {input : List UInt8} {fuel i k : Nat} :
    hkdf_loop P (input ++ [0]) [0, UInt8.ofNat L] fuel (keygenSalt P i) = .ok k ↔
      ∃ j < fuel, keyCandidate P input (i + j) = k ∧ k ≠ 0 ∧
        ∀ l < j, keyCandidate P input (i + l) = 0 := by
  have hc : ∀ i, ofBeBytes (P.hkdf (keygenSalt P i) (input ++ [0]) [0, UInt8.ofNat L] L) % MODULUS =
      keyCandidate P input i := fun i => rfl
  have hs : ∀ i, P.hash (keygenSalt P i) = keygenSalt P (i + 1) := by
    intro i; unfold keygenSalt; rw [Function.iterate_succ_apply' P.hash (i + 1)]
  induction fuel generalizing i with
  | zero =>
    unfold hkdf_loop
    constructor
    · nofun
    · rintro ⟨j, hj, -⟩; omega
  | succ fuel ih =>
    unfold hkdf_loop
    dsimp only
    rw [hc, hs]
    split
    · rename_i h0
      refine (ih (i := i + 1)).trans ?_
      constructor
      · rintro ⟨j, hj, h1, h2, h3⟩
        refine ⟨j + 1, by omega, by rw [← h1]; congr 1; omega, h2, ?_⟩
        intro l hl
        cases l with
        | zero => exact h0
        | succ l => rw [← h3 l (by omega)]; congr 1; omega
      · rintro ⟨j, hj, h1, h2, h3⟩
        cases j with
        | zero => exact absurd (h1.symm.trans h0) h2
        | succ j =>
          refine ⟨j, by omega, by rw [← h1]; congr 1; omega, h2, ?_⟩
          intro l hl
          rw [← h3 (l + 1) (by omega)]; congr 1; omega
    · rename_i h0
      constructor
      · intro h
        cases h
        exact ⟨0, by omega, rfl, h0, fun l hl => by omega⟩
      · rintro ⟨j, hj, h1, h2, h3⟩
        cases j with
        | zero => rw [← h1]; rfl
        | succ j => exact absurd (h3 0 (by omega)) h0

theorem hkdf_loop_error {P : Primitives} {ikm info salt : List UInt8} {fuel : Nat} {e : KeyErr}
    (h : hkdf_loop P ikm info fuel salt = .error e) : e = .diverges := by
  induction fuel generalizing salt with
  | zero => cases h; rfl
  | succ fuel ih =>
    unfold hkdf_loop at h
    dsimp only at h
    split at h
    · exact ih h
    · cases h

theorem candidate_lt (P : Primitives) (input : List UInt8) (i : Nat) :
    keyCandidate P input i < MODULUS := Nat.mod_lt _ (by decide)

theorem hkdf_mod_r_iff {P : Primitives} {input : List UInt8} {fuel k : Nat} :
    hkdf_mod_r P fuel input = .ok k ↔
      ∃ i < fuel, keyCandidate P input i = k ∧ k ≠ 0 ∧ ∀ j < i, keyCandidate P input j = 0 := by
  have hl := @hkdf_loop_iff P input fuel 0
  simp only [Nat.zero_add] at hl
  unfold hkdf_mod_r
  dsimp only
  change (hkdf_loop P (input ++ [0]) [0, UInt8.ofNat L] fuel (keygenSalt P 0) >>= _) = _ ↔ _
  cases h : hkdf_loop P (input ++ [0]) [0, UInt8.ofNat L] fuel (keygenSalt P 0) with
  | error e =>
    constructor
    · nofun
    · intro h'
      rw [hl.2 h'] at h
      cases h
  | ok x =>
    have hx := hl.1 h
    have hlt : x < MODULUS := by
      obtain ⟨i, -, rfl, -⟩ := hx
      exact candidate_lt P input i
    dsimp only [Bind.bind, Except.bind]
    rw [low_bytes hlt]
    constructor
    · intro h'; cases h'; exact hx
    · intro h'
      rw [hl.2 h'] at h
      cases h
      rfl

theorem hkdf_mod_r_error {P : Primitives} {input : List UInt8} {fuel : Nat} {e : KeyErr}
    (h : hkdf_mod_r P fuel input = .error e) : e = .diverges := by
  unfold hkdf_mod_r at h
  dsimp only at h
  cases h' : hkdf_loop P (input ++ [0]) [0, UInt8.ofNat L] fuel (P.hash SALT) with
  | ok x => rw [h'] at h; cases h
  | error e' => rw [h'] at h; cases h; exact hkdf_loop_error h'

theorem hkdf_mod_r_first {P : Primitives} {input : List UInt8} {fuel k : Nat}
    (h : hkdf_mod_r P fuel input = .ok k) : FirstNonzero P input k := by
  obtain ⟨i, -, h1, h2, h3⟩ := hkdf_mod_r_iff.1 h
  exact ⟨i, h1, h2, h3⟩

theorem firstNonzero_range {P : Primitives} {input : List UInt8} {k : Nat}
    (h : FirstNonzero P input k) : 0 < k ∧ k < MODULUS := by
  obtain ⟨i, rfl, h2, -⟩ := h
  exact ⟨Nat.pos_of_ne_zero h2, candidate_lt P input i⟩

theorem firstNonzero_unique {P : Primitives} {input : List UInt8} {k k' : Nat}
    (h : FirstNonzero P input k) (h' : FirstNonzero P input k') : k = k' := by
  obtain ⟨i, rfl, h2, h3⟩ := h
  obtain ⟨i', rfl, h2', h3'⟩ := h'
  rcases Nat.lt_trichotomy i i' with h | h | h
  · exact absurd (h3' i h) h2
  · rw [h]
  · exact absurd (h3 i' h) h2'

/-! ## Derivation -/

theorem secret_key_ok {k : Nat} (h : 0 < k ∧ k < MODULUS) : to_bls_secret_key k = .ok k := by
  unfold to_bls_secret_key secret_key_try_from
  have : ofBeBytes (toBeBytes 32 k) = k := by
    rw [ofBe_toBe, Nat.mod_eq_of_lt (Nat.lt_trans h.2 modulus_lt)]
  dsimp only
  rw [this, if_pos ⟨toBe_length _ _, h.1, h.2⟩]

theorem derived_append {P : Primitives} {a b c : Nat} {p q : List Nat}
    (h : DerivedAlong P a p b) (h' : DerivedAlong P b q c) : DerivedAlong P a (p ++ q) c := by
  induction h with
  | here => exact h'
  | child parent index key path last h1 _ ih => exact .child _ _ _ _ _ h1 (ih h')

theorem derived_range {P : Primitives} {a b : Nat} {p : List Nat} (h : DerivedAlong P a p b)
    (ha : 0 < a ∧ a < MODULUS) : 0 < b ∧ b < MODULUS := by
  induction h with
  | here => exact ha
  | child parent index key path last h1 _ ih => exact ih (firstNonzero_range h1)

theorem fold_ok {P : Primitives} {fuel a b : Nat} {p : List Nat}
    (h : p.foldlM (derive_child_key P fuel) a = .ok b) : DerivedAlong P a p b := by
  induction p generalizing a with
  | nil => cases h; exact .here _
  | cons i p ih =>
    rw [List.foldlM_cons] at h
    cases h1 : derive_child_key P fuel a i with
    | error e => rw [h1] at h; cases h
    | ok k =>
      rw [h1] at h
      exact .child _ _ _ _ _ (hkdf_mod_r_first h1) (ih h)

theorem fold_error {P : Primitives} {fuel a : Nat} {p : List Nat} {e : KeyErr}
    (h : p.foldlM (derive_child_key P fuel) a = .error e) : e = .diverges := by
  induction p generalizing a with
  | nil => cases h
  | cons i p ih =>
    rw [List.foldlM_cons] at h
    cases h1 : derive_child_key P fuel a i with
    | error e' => rw [h1] at h; cases h; exact hkdf_mod_r_error h1
    | ok k => rw [h1] at h; exact ih h

/-- the text of a path -/
def pathText (index : Nat) (rest : String) : List Char :=
  "m/12381/3600/".toList ++ Text.decimal index ++ rest.toList

theorem derive_validator_keys_ok {P : Primitives} {fuel root index : Nat} {r : KeyPair × KeyPair}
    (hr : 0 < root ∧ root < MODULUS) (h : derive_validator_keys P fuel root index = .ok r) :
    DerivedAlong P root [12381, 3600, index, 0] r.2.private_key ∧
    DerivedAlong P root [12381, 3600, index, 0, 0] r.1.private_key ∧
    r.1.path = pathText index "/0/0" ∧ r.2.path = pathText index "/0" := by
  unfold derive_validator_keys at h
  cases h1 : [12381, 3600, index, 0].foldlM (derive_child_key P fuel) root with
  | error e => rw [h1] at h; cases h
  | ok w =>
    rw [h1] at h
    dsimp only [Bind.bind, Except.bind] at h
    have hw := fold_ok h1
    cases h2 : derive_child_key P fuel w 0 with
    | error e => rw [h2] at h; cases h
    | ok sk =>
      rw [h2] at h
      have hs := derived_append hw (.child _ _ _ _ _ (hkdf_mod_r_first h2) (.here _))
      dsimp only [to_key_pair, Bind.bind, Except.bind] at h
      rw [secret_key_ok (derived_range hs hr), secret_key_ok (derived_range hw hr)] at h
      cases h
      exact ⟨hw, hs, rfl, rfl⟩

theorem derive_validator_keys_error {P : Primitives} {fuel root index : Nat} {e : KeyErr}
    (hr : 0 < root ∧ root < MODULUS) (h : derive_validator_keys P fuel root index = .error e) :
    e = .diverges := by
  unfold derive_validator_keys at h
  cases h1 : [12381, 3600, index, 0].foldlM (derive_child_key P fuel) root with
  | error e => rw [h1] at h; cases h; exact fold_error h1
  | ok w =>
    rw [h1] at h
    dsimp only [Bind.bind, Except.bind] at h
    have hw := fold_ok h1
    cases h2 : derive_child_key P fuel w 0 with
    | error e => rw [h2] at h; cases h; exact hkdf_mod_r_error h2
    | ok sk =>
      rw [h2] at h
      have hs := derived_append hw (.child _ _ _ _ _ (hkdf_mod_r_first h2) (.here _))
      dsimp only [to_key_pair, Bind.bind, Except.bind] at h
      rw [secret_key_ok (derived_range hs hr), secret_key_ok (derived_range hw hr)] at h
      cases h

theorem mapM_ok {α β ε : Type} {f : α → Except ε β} {l : List α} {r : List β}
    (h : l.mapM f = .ok r) : r.length = l.length ∧
      ∀ (i : Nat) a b, l[i]? = some a → r[i]? = some b → f a = .ok b := by
  induction l generalizing r with
  | nil => cases h; exact ⟨rfl, by simp⟩
  | cons x xs ih =>
    rw [List.mapM_cons] at h
    cases h1 : f x with
    | error e => rw [h1] at h; cases h
    | ok y =>
      rw [h1] at h
      cases h2 : xs.mapM f with
      | error e => rw [h2] at h; cases h
      | ok ys =>
        rw [h2] at h
        cases h
        obtain ⟨hl, hi⟩ := ih h2
        refine ⟨by simp [hl], ?_⟩
        intro i a b ha hb
        cases i with
        | zero => cases ha; cases hb; exact h1
        | succ i => exact hi i a b ha hb

theorem mapM_error {α β ε : Type} {f : α → Except ε β} {l : List α} {e : ε}
    (h : l.mapM f = .error e) : ∃ a ∈ l, f a = .error e := by
  induction l with
  | nil => cases h
  | cons x xs ih =>
    rw [List.mapM_cons] at h
    cases h1 : f x with
    | error e => rw [h1] at h; cases h; exact ⟨x, List.mem_cons_self, h1⟩
    | ok y =>
      rw [h1] at h
      cases h2 : xs.mapM f with
      | error e =>
        rw [h2] at h; cases h
        obtain ⟨a, ha, hf⟩ := ih h2
        exact ⟨a, List.mem_cons_of_mem _ ha, hf⟩
      | ok ys => rw [h2] at h; cases h

/-! ## Keystores -/

theorem block_eq {P : Primitives} {key iv : List UInt8} {i : Nat} (hiv : iv.length = 16)
    (h : ofBeBytes (iv.drop 8) + i < 2 ^ 64) : keystream_block P key iv i = ctrBlock P key iv i := by
  unfold keystream_block ctrBlock
  congr 1
  have hd : (iv.drop 8).length = 8 := by rw [List.length_drop, hiv]
  have ht : (iv.take 8).length = 8 := by rw [List.length_take, hiv]; rfl
  refine ofBe_inj (by rw [List.length_append, ht, toBe_length, toBe_length]) ?_
  have e := ofBe_append (iv.take 8) (iv.drop 8)
  rw [List.take_append_drop, hd] at e
  have hlt := ofBe_lt (iv.take 8)
  rw [ht] at hlt
  rw [ofBe_append, ofBe_toBe, ofBe_toBe, toBe_length, e]
  generalize ofBeBytes (iv.take 8) = a at *
  generalize ofBeBytes (iv.drop 8) = b at *
  have p8 : (256 : Nat) ^ 8 = 18446744073709551616 := by decide
  have p64 : (2 : Nat) ^ 64 = 18446744073709551616 := by decide
  have p16 : (256 : Nat) ^ 16 = 340282366920938463463374607431768211456 := by decide
  have p128 : (2 : Nat) ^ 128 = 340282366920938463463374607431768211456 := by decide
  rw [p8] at *
  rw [p64] at *
  rw [p16, p128]
  omega

theorem zipXor_zipXor {xs ks : List UInt8} (h : xs.length ≤ ks.length) :
    List.zipWith (· ^^^ ·) (List.zipWith (· ^^^ ·) xs ks) ks = xs := by
  induction xs generalizing ks with
  | nil => simp
  | cons x xs ih =>
    cases ks with
    | nil => simp at h
    | cons k ks =>
      simp only [List.length_cons, Nat.add_le_add_iff_right] at h
      simp only [List.zipWith_cons_cons, ih h, List.cons.injEq, and_true]
      rw [UInt8.xor_assoc, UInt8.xor_self, UInt8.xor_zero]

theorem zipWith_append_of_le {f : UInt8 → UInt8 → UInt8} {xs ks rest : List UInt8}
    (h : xs.length ≤ ks.length) : List.zipWith f xs (ks ++ rest) = List.zipWith f xs ks := by
  induction xs generalizing ks with
  | nil => simp
  | cons x xs ih =>
    cases ks with
    | nil => simp at h
    | cons k ks =>
      simp only [List.length_cons, Nat.add_le_add_iff_right] at h
      simp [ih h]

end Verif.Keys
