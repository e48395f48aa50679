import Verif.Spec.Blobs

/-! # Proofs about blob packing -/

namespace Verif.Blobs

open Spec

/-! ## Chunks -/

section
variable {α : Type}

theorem chunks_nil {n : Nat} {xs : List α} (h : xs.length < n) : chunksExact n xs = [] := by
  unfold chunksExact; rw [Nat.div_eq_of_lt h]; rfl

theorem chunks_cons {n : Nat} (hn : 0 < n) {a rest : List α} (ha : a.length = n) :
    chunksExact n (a ++ rest) = a :: chunksExact n rest := by
  unfold chunksExact
  have : (a ++ rest).length / n = rest.length / n + 1 := by
    rw [List.length_append, ha, Nat.add_comm, Nat.add_div_right _ hn]
  rw [this, List.range_succ_eq_map, List.map_cons, List.map_map]
  congr 1
  · simp [← ha]
  · apply List.map_congr_left
    intro k _
    simp only [Function.comp_apply, Nat.succ_eq_add_one, Nat.add_mul, Nat.one_mul]
    rw [Nat.add_comm (k * n) n, ← ha, List.drop_append, List.drop_of_length_le (by omega)]
    simp

theorem chunks_flatten {n : Nat} (hn : 0 < n) {l : List (List α)} {r : List α}
    (hl : ∀ a ∈ l, a.length = n) (hr : r.length < n) : chunksExact n (l.flatten ++ r) = l := by
  induction l with
  | nil => exact chunks_nil hr
  | cons a l ih =>
    rw [List.flatten_cons, List.append_assoc, chunks_cons hn (hl a List.mem_cons_self),
      ih fun b hb => hl b (List.mem_cons_of_mem _ hb)]

theorem chunk_length {n : Nat} {xs : List α} : ∀ a ∈ chunksExact n xs, a.length = n := by
  intro a ha
  unfold chunksExact at ha
  obtain ⟨k, hk, rfl⟩ := List.mem_map.1 ha
  rw [List.mem_range] at hk
  rw [List.length_take, List.length_drop]
  have h1 : (k + 1) * n ≤ xs.length / n * n := Nat.mul_le_mul_right n hk
  have h2 := Nat.div_mul_le_self xs.length n
  rw [Nat.add_mul, Nat.one_mul] at h1
  omega

theorem chunks_count {n : Nat} {xs : List α} : (chunksExact n xs).length = xs.length / n := by
  simp [chunksExact]

/-- a list is its chunks and the remainder -/
theorem chunks_parts {n : Nat} (hn : 0 < n) (xs : List α) :
    (chunksExact n xs).flatten ++ chunksRemainder n xs = xs := by
  induction h : xs.length / n generalizing xs with
  | zero =>
    have hlt : xs.length < n := by
      rcases Nat.lt_or_ge xs.length n with h' | h'
      · exact h'
      · have := Nat.div_pos h' hn; omega
    rw [chunks_nil hlt]
    simp [chunksRemainder, h]
  | succ k ih =>
    have hge : n ≤ xs.length := by
      rcases Nat.lt_or_ge xs.length n with h' | h'
      · rw [Nat.div_eq_of_lt h'] at h; omega
      · exact h'
    have e : xs.length / n = (xs.drop n).length / n + 1 := by
      rw [List.length_drop, Nat.div_eq_sub_div hn hge]
    have hx : xs.take n ++ xs.drop n = xs := List.take_append_drop n xs
    have hc : chunksExact n xs = xs.take n :: chunksExact n (xs.drop n) := by
      rw [← hx, chunks_cons hn (by rw [List.length_take]; omega), hx]
    have hr : chunksRemainder n xs = chunksRemainder n (xs.drop n) := by
      unfold chunksRemainder
      rw [List.drop_drop, e, Nat.add_mul, Nat.one_mul, Nat.add_comm n]
    rw [hc, hr, List.flatten_cons, List.append_assoc, ih (xs.drop n) (by omega), hx]

theorem remainder_length {n : Nat} {xs : List α} :
    (chunksRemainder n xs).length = xs.length % n := by
  unfold chunksRemainder
  rw [List.length_drop]
  have := Nat.div_add_mod xs.length n
  rw [Nat.mul_comm] at this; omega

theorem chunks_append {n : Nat} (hn : 0 < n) {xs ys : List α} (h : n ∣ xs.length) :
    chunksExact n (xs ++ ys) = chunksExact n xs ++ chunksExact n ys := by
  have h0 : chunksRemainder n xs = [] := by
    rw [← List.length_eq_zero_iff, remainder_length]; exact Nat.mod_eq_zero_of_dvd h
  have hx := chunks_parts hn xs
  rw [h0, List.append_nil] at hx
  have hy := chunks_parts hn ys
  have hr : (chunksRemainder n ys).length < n := by rw [remainder_length]; exact Nat.mod_lt _ hn
  calc chunksExact n (xs ++ ys)
      = chunksExact n ((chunksExact n xs ++ chunksExact n ys).flatten ++ chunksRemainder n ys) := by
        rw [List.flatten_append, List.append_assoc, hy, hx]
    _ = _ := chunks_flatten hn (by
        intro a ha
        rcases List.mem_append.1 ha with ha | ha <;> exact chunk_length a ha) hr

theorem sum_const_length {n : Nat} {l : List (List α)} (h : ∀ a ∈ l, a.length = n) :
    l.flatten.length = l.length * n := by
  induction l with
  | nil => simp
  | cons a l ih =>
    rw [List.flatten_cons, List.length_append, h a List.mem_cons_self,
      ih fun b hb => h b (List.mem_cons_of_mem _ hb), List.length_cons, Nat.add_mul, Nat.one_mul,
      Nat.add_comm]

end

/-! ## Bits -/

theorem bitsOfByte_length (b : UInt8) : (bitsOfByte b).length = 8 := rfl

theorem bitsOf_length (bs : List UInt8) : (bitsOf bs).length = bs.length * 8 := by
  induction bs with
  | nil => rfl
  | cons b bs ih =>
    unfold bitsOf at *
    rw [List.flatMap_cons, List.length_append, ih, bitsOfByte_length, List.length_cons]; omega

theorem bitsOf_append (a b : List UInt8) : bitsOf (a ++ b) = bitsOf a ++ bitsOf b :=
  List.flatMap_append

theorem bitsOf_zeros (n : Nat) : bitsOf (List.replicate n 0) = List.replicate (n * 8) false := by
  induction n with
  | zero => rfl
  | succ n ih =>
    unfold bitsOf at *
    rw [List.replicate_succ, List.flatMap_cons, ih, Nat.add_mul, Nat.one_mul, Nat.add_comm (n * 8),
      ← List.replicate_append_replicate]
    rfl

theorem byte_bits (b : UInt8) : UInt8.ofNat (natOfBits (bitsOfByte b)) = b := by
  have h : ∀ n < 256, natOfBits (bitsOfByte (UInt8.ofNat n)) = n := by decide +kernel
  have hb := b.toNat_lt
  rw [← UInt8.ofNat_toNat (x := b), h _ hb]

theorem bits_byte {a : List Bool} (h : a.length = 8) :
    bitsOfByte (UInt8.ofNat (natOfBits a)) = a := by
  match a, h with
  | [a, b, c, d, e, f, g, i], _ =>
    revert a b c d e f g i; decide +kernel

theorem bytesOf_eq (bits : List Bool) :
    bytesOf bits = (chunksExact 8 bits).map fun c => UInt8.ofNat (natOfBits c) := by
  unfold bytesOf chunksExact; rw [List.map_map]; rfl

theorem bytesOf_append {a b : List Bool} (h : 8 ∣ a.length) :
    bytesOf (a ++ b) = bytesOf a ++ bytesOf b := by
  rw [bytesOf_eq, chunks_append (by decide) h, List.map_append, ← bytesOf_eq, ← bytesOf_eq]

theorem bytesOf_bitsOf (bs : List UInt8) : bytesOf (bitsOf bs) = bs := by
  induction bs with
  | nil => rfl
  | cons b bs ih =>
    have : bitsOf (b :: bs) = bitsOfByte b ++ bitsOf bs := rfl
    rw [this, bytesOf_eq, chunks_cons (by decide) (bitsOfByte_length b), List.map_cons,
      byte_bits, ← bytesOf_eq, ih]

theorem bitsOf_bytesOf {bits : List Bool} (h : 8 ∣ bits.length) : bitsOf (bytesOf bits) = bits := by
  have h0 : chunksRemainder 8 bits = [] := by
    rw [← List.length_eq_zero_iff, remainder_length]; exact Nat.mod_eq_zero_of_dvd h
  have hx := chunks_parts (n := 8) (by decide) bits
  rw [h0, List.append_nil] at hx
  have hl : ∀ c ∈ chunksExact 8 bits, c.length = 8 := chunk_length
  rw [bytesOf_eq]
  conv => rhs; rw [← hx]
  generalize chunksExact 8 bits = l at hl
  induction l with
  | nil => rfl
  | cons c l ih =>
    have : bitsOf ((c :: l).map fun c => UInt8.ofNat (natOfBits c)) =
        bitsOfByte (UInt8.ofNat (natOfBits c)) ++ bitsOf (l.map fun c => UInt8.ofNat (natOfBits c)) :=
      rfl
    rw [this, bits_byte (hl c List.mem_cons_self), ih fun b hb => hl b (List.mem_cons_of_mem _ hb),
      List.flatten_cons]

theorem bytesOf_length (bits : List Bool) : (bytesOf bits).length = bits.length / 8 := by
  simp [bytesOf]

/-! ## Numbers -/

theorem foldl_bits (bits : List Bool) (n : Nat) :
    bits.foldl (fun n b => 2 * n + b.toNat) n = n * 2 ^ bits.length + natOfBits bits := by
  induction bits generalizing n with
  | nil => simp [natOfBits]
  | cons b bs ih =>
    simp only [List.foldl_cons, natOfBits, List.length_cons]
    rw [ih, ih (2 * 0 + b.toNat), Nat.pow_succ]
    simp only [Nat.mul_zero, Nat.zero_add, Nat.add_mul]
    rw [← Nat.add_assoc]
    congr 2
    rw [Nat.mul_comm 2 n, Nat.mul_assoc, Nat.mul_comm 2]

theorem natOfBits_append (a b : List Bool) :
    natOfBits (a ++ b) = natOfBits a * 2 ^ b.length + natOfBits b := by
  rw [natOfBits, List.foldl_append, foldl_bits]; rfl

theorem natOfBits_lt (bits : List Bool) : natOfBits bits < 2 ^ bits.length := by
  induction bits with
  | nil => decide
  | cons b bs ih =>
    have := natOfBits_append [b] bs
    rw [List.singleton_append] at this
    rw [this, List.length_cons, Nat.pow_succ]
    have : natOfBits [b] ≤ 1 := by cases b <;> decide
    have := Nat.mul_le_mul_right (2 ^ bs.length) this
    omega

theorem foldl_bytes (bs : List UInt8) (n : Nat) :
    bs.foldl (fun n b => 256 * n + b.toNat) n = n * 256 ^ bs.length + ofBeBytes bs := by
  induction bs generalizing n with
  | nil => simp [ofBeBytes]
  | cons b bs ih =>
    simp only [List.foldl_cons, ofBeBytes, List.length_cons]
    rw [ih, ih (256 * 0 + b.toNat), Nat.pow_succ]
    simp only [Nat.mul_zero, Nat.zero_add, Nat.add_mul]
    rw [← Nat.add_assoc]
    congr 2
    rw [Nat.mul_comm 256 n, Nat.mul_assoc, Nat.mul_comm 256]

theorem byte_value (b : UInt8) : natOfBits (bitsOfByte b) = b.toNat := by
  have h : ∀ n < 256, natOfBits (bitsOfByte (UInt8.ofNat n)) = n := by decide +kernel
  have := h _ b.toNat_lt
  rwa [UInt8.ofNat_toNat] at this

theorem natOfBits_bitsOf (bs : List UInt8) : natOfBits (bitsOf bs) = ofBeBytes bs := by
  induction bs with
  | nil => rfl
  | cons b bs ih =>
    have : bitsOf (b :: bs) = bitsOfByte b ++ bitsOf bs := rfl
    rw [this, natOfBits_append, ih, byte_value, bitsOf_length, Nat.mul_comm bs.length, Nat.pow_mul]
    have := foldl_bytes bs b.toNat
    simp only [ofBeBytes, List.foldl_cons] at this ⊢
    rw [Nat.mul_zero, Nat.zero_add, this]

theorem ofBe_bytesOf {bits : List Bool} (h : 8 ∣ bits.length) :
    ofBeBytes (bytesOf bits) = natOfBits bits := by
  rw [← natOfBits_bitsOf, bitsOf_bytesOf h]

/-! ## Field elements -/

/-- the 256 bits of the element carrying `src` -/
def feBits (src : List Bool) : List Bool :=
  false :: false :: (src ++ List.replicate (254 - src.length) false)

/-- the 32 bytes of the element carrying `src` -/
def fe (src : List Bool) : List UInt8 := bytesOf (feBits src)

theorem feBits_length {src : List Bool} (h : src.length ≤ 254) : (feBits src).length = 256 := by
  simp [feBits]; omega

theorem fe_length {src : List Bool} (h : src.length ≤ 254) : (fe src).length = 32 := by
  rw [fe, bytesOf_length, feBits_length h]

theorem bitsOf_fe {src : List Bool} (h : src.length ≤ 254) : bitsOf (fe src) = feBits src := by
  rw [fe, bitsOf_bytesOf]; rw [feBits_length h]; decide

theorem fe_canonical {src : List Bool} (h : src.length ≤ 254) : ofBeBytes (fe src) < MODULUS := by
  rw [fe, ofBe_bytesOf (by rw [feBits_length h]; decide)]
  have e : natOfBits (feBits src) = natOfBits (src ++ List.replicate (254 - src.length) false) := by
    rw [show feBits src = [false, false] ++ (src ++ List.replicate (254 - src.length) false) from rfl,
      natOfBits_append]
    simp [natOfBits]
  rw [e]
  have h1 := natOfBits_lt (src ++ List.replicate (254 - src.length) false)
  have h2 : (src ++ List.replicate (254 - src.length) false).length = 254 := by simp; omega
  rw [h2] at h1
  exact Nat.lt_trans h1 (by decide +kernel)

theorem field_element_ok {src : List Bool} (h : src.length ≤ 254) :
    field_element_from_bits src = .ok (fe src) := by
  have hc : copyAt (bitsOf (List.replicate BYTES_PER_FIELD_ELEMENT 0)) 2 src = .ok (feBits src) := by
    unfold copyAt
    rw [bitsOf_zeros, if_pos (by rw [List.length_replicate]; unfold BYTES_PER_FIELD_ELEMENT; omega)]
    have : BYTES_PER_FIELD_ELEMENT * 8 - (2 + src.length) = 254 - src.length := by
      unfold BYTES_PER_FIELD_ELEMENT; omega
    rw [List.drop_replicate, this]
    rfl
  unfold field_element_from_bits
  rw [hc]
  show (if ofBeBytes (fe src) < MODULUS then _ else _) = _
  rw [if_pos (fe_canonical h)]
  rfl

/-! ## Packing -/

theorem pack_chunks_ok : ∀ (cs : List (List Bool)) (blobs : List (List UInt8)) (buf : List UInt8),
    (∀ c ∈ cs, c.length ≤ 254) → buf.length ≤ BYTES_PER_BLOB → 32 ∣ buf.length →
    (∀ b ∈ blobs, b.length = BYTES_PER_BLOB) →
    ∃ blobs' buf', pack_chunks cs blobs buf = .ok (blobs', buf') ∧
      blobs'.flatten ++ buf' = blobs.flatten ++ buf ++ (cs.map fe).flatten ∧
      buf'.length ≤ BYTES_PER_BLOB ∧ 32 ∣ buf'.length ∧
      (∀ b ∈ blobs', b.length = BYTES_PER_BLOB) ∧ (cs ≠ [] ∨ buf ≠ [] → buf' ≠ [])
  | [], blobs, buf, _, h1, h2, h3 =>
    ⟨blobs, buf, rfl, by simp, h1, h2, h3, fun h => h.resolve_left (fun h => h rfl)⟩
  | c :: cs, blobs, buf, hc, h1, h2, h3 => by
    have hcl := hc c List.mem_cons_self
    have hcs : ∀ c ∈ cs, c.length ≤ 254 := fun b hb => hc b (List.mem_cons_of_mem _ hb)
    have hfl := fe_length hcl
    have hne : ∀ x : List UInt8, x ++ fe c ≠ [] := by
      intro x hx
      have := congrArg List.length hx
      rw [List.length_append, hfl] at this; simp at this
    unfold pack_chunks
    split
    · rename_i hfull
      have hb : to_blob buf = .ok buf := by unfold to_blob; rw [if_pos hfull]
      obtain ⟨blobs', buf', e1, e2, e3, e4, e5, e6⟩ := pack_chunks_ok cs (blobs ++ [buf]) (fe c) hcs
        (by rw [hfl]; decide) (by rw [hfl]; decide) (by
          intro b hb
          rcases List.mem_append.1 hb with hb | hb
          · exact h3 b hb
          · cases List.mem_singleton.1 hb; exact hfull)
      refine ⟨blobs', buf', ?_, ?_, e3, e4, e5, fun _ => e6 (.inr (hne []))⟩
      · rw [hb, field_element_ok hcl]; exact e1
      · rw [e2]; simp
    · rename_i hfull
      have h4 : (buf ++ fe c).length ≤ BYTES_PER_BLOB := by
        rw [List.length_append, hfl]
        unfold BYTES_PER_BLOB at *
        omega
      obtain ⟨blobs', buf', e1, e2, e3, e4, e5, e6⟩ := pack_chunks_ok cs blobs (buf ++ fe c) hcs
        h4 (by rw [List.length_append, hfl]; omega) h3
      refine ⟨blobs', buf', ?_, ?_, e3, e4, e5, fun _ => e6 (.inr (hne buf))⟩
      · rw [field_element_ok hcl]; exact e1
      · rw [e2]; simp

/-- The parts of the data that end up in blobs. -/
def kept (buffer : List UInt8) : List (List Bool) :=
  let cs := chunksExact 254 (bitsOf buffer)
  let r := chunksRemainder 254 (bitsOf buffer)
  if r = [] ∨ Dropped buffer.length then cs else cs ++ [r]

theorem dropped_iff (buffer : List UInt8) : Dropped buffer.length ↔
    (chunksExact 254 (bitsOf buffer)).length % 4096 = 0 ∧
      chunksExact 254 (bitsOf buffer) ≠ [] ∧ chunksRemainder 254 (bitsOf buffer) ≠ [] := by
  have e1 : chunksExact 254 (bitsOf buffer) ≠ [] ↔ 0 < (bitsOf buffer).length / 254 := by
    rw [← chunks_count, List.length_pos_iff]
  have e2 : chunksRemainder 254 (bitsOf buffer) ≠ [] ↔ 0 < (bitsOf buffer).length % 254 := by
    rw [← remainder_length, List.length_pos_iff]
  rw [bitsOf_length] at e1 e2
  rw [e1, e2, chunks_count, bitsOf_length]
  unfold Dropped
  have : BLOB_ROOM = 130048 := by decide
  rw [this]
  generalize buffer.length = n
  have e3 : n * 8 / 254 = 4096 * (n / 130048) + n % 130048 * 8 / 254 := by
    have h : n * 8 = n % 130048 * 8 + 254 * (4096 * (n / 130048)) := by omega
    rw [h, Nat.add_mul_div_left _ _ (by decide)]
    omega
  have e4 : n * 8 % 254 = n % 130048 * 8 % 254 := by
    have h : n * 8 = n % 130048 * 8 + 254 * (4096 * (n / 130048)) := by omega
    rw [h, Nat.add_mul_mod_self_left]
  rw [e3, e4, Nat.mul_add_mod]
  have h1 : n % 130048 < 130048 := Nat.mod_lt _ (by decide)
  have h2 : n / 130048 = 0 ↔ n < 130048 := by omega
  generalize n / 130048 = q at *
  generalize n % 130048 = s at *
  have h3 : s * 8 / 254 = 0 ↔ s < 32 := by omega
  have h4 : s * 8 / 254 < 4096 := by omega
  have h5 : s < 32 → (0 < s * 8 % 254 ↔ 0 < s) := by omega
  rw [Nat.mod_eq_of_lt h4, h3]
  generalize s * 8 / 254 = m at *
  generalize s * 8 % 254 = m' at *
  omega

theorem pack_ok (buffer : List UInt8) :
    ∃ blobs z, pack_into_blobs buffer = .ok blobs ∧
      (∀ b ∈ blobs, b.length = BYTES_PER_BLOB) ∧ blobs ≠ [] ∧
      blobs.flatten = ((kept buffer).map fe).flatten ++ List.replicate z 0 ∧ 32 ∣ z ∧
      z < BYTES_PER_BLOB + (if buffer = [] then 1 else 0) := by
  have hcs : ∀ c ∈ chunksExact 254 (bitsOf buffer), c.length ≤ 254 :=
    fun c hc => Nat.le_of_eq (chunk_length c hc)
  have hdrop := dropped_iff buffer
  have hrl : (chunksRemainder 254 (bitsOf buffer)).length < 254 := by
    rw [remainder_length]; exact Nat.mod_lt _ (by decide)
  have hr0 : buffer = [] → chunksRemainder 254 (bitsOf buffer) = [] := by rintro rfl; rfl
  have hbuf' : chunksExact 254 (bitsOf buffer) = [] → chunksRemainder 254 (bitsOf buffer) = [] →
      buffer = [] := by
    intro h1 h2
    have := chunks_parts (n := 254) (by decide) (bitsOf buffer)
    rw [h1, h2] at this
    have := congrArg List.length this
    rw [bitsOf_length] at this
    exact List.length_eq_zero_iff.1 (by simp at this; omega)
  unfold pack_into_blobs kept BITS_PER_FIELD_ELEMENT
  dsimp only
  generalize chunksExact 254 (bitsOf buffer) = cs at *
  generalize chunksRemainder 254 (bitsOf buffer) = r at *
  obtain ⟨blobs, buf, e1, e2, e3, e4, e5, e6⟩ := pack_chunks_ok cs [] [] hcs (by decide) (by decide)
    (by simp)
  simp only [List.flatten_nil, List.nil_append] at e2
  have hlen : blobs.length * BYTES_PER_BLOB + buf.length = cs.length * 32 := by
    have := congrArg List.length e2
    rw [List.length_append, sum_const_length e5, sum_const_length (n := 32)] at this
    · simpa using this
    · intro a ha
      obtain ⟨c, hc, rfl⟩ := List.mem_map.1 ha
      exact fe_length (hcs c hc)
  have h32 : buf.length % BYTES_PER_FIELD_ELEMENT = 0 := Nat.mod_eq_zero_of_dvd e4
  simp only [e1, bind, Except.bind, if_pos h32]
  have hpos : cs ≠ [] → 0 < buf.length := fun h => List.length_pos_iff.2 (e6 (.inl h))
  have hzero : cs = [] → buf.length = 0 := by
    intro h; rw [h, List.length_nil] at hlen; omega
  have hfull : buf.length = BYTES_PER_BLOB ↔ cs.length % 4096 = 0 ∧ cs ≠ [] := by
    have h0 : cs ≠ [] ↔ cs.length ≠ 0 := by simp
    constructor
    · intro h
      rw [h] at hlen
      have hne : cs ≠ [] := by
        intro hc; have := hzero hc; rw [h] at this; exact absurd this (by decide)
      unfold BYTES_PER_BLOB at *
      exact ⟨by omega, hne⟩
    · rintro ⟨h1, h2⟩
      have := hpos h2
      unfold BYTES_PER_BLOB at *
      omega
  by_cases hr : r = []
  · rw [if_pos hr, if_pos (Or.inl hr)]
    have h1 : (resize buf BYTES_PER_BLOB) = buf ++ List.replicate (BYTES_PER_BLOB - buf.length) 0 := by
      unfold resize; rw [List.take_of_length_le e3]
    have h2 : (resize buf BYTES_PER_BLOB).length = BYTES_PER_BLOB := by
      rw [h1]; simp; omega
    have h3 : to_blob (resize buf BYTES_PER_BLOB) = .ok (resize buf BYTES_PER_BLOB) := by
      unfold to_blob; rw [if_pos h2]
    refine ⟨blobs ++ [resize buf BYTES_PER_BLOB], BYTES_PER_BLOB - buf.length, ?_, ?_, by simp, ?_,
      ?_, ?_⟩
    · simp only [pure, Except.pure, h3]
    · intro b hb
      rcases List.mem_append.1 hb with hb | hb
      · exact e5 b hb
      · cases List.mem_singleton.1 hb; exact h2
    · rw [List.flatten_append, h1, ← e2]; simp
    · unfold BYTES_PER_BLOB at *; omega
    · split
      · omega
      · rename_i hb
        have : cs ≠ [] := fun h => hb (hbuf' h hr)
        have := hpos this; omega
  · rw [if_neg hr, field_element_ok (Nat.le_of_lt hrl)]
    have hbne : buffer ≠ [] := fun h => hr (hr0 h)
    rw [if_neg hbne]
    have hfl := fe_length (Nat.le_of_lt hrl)
    by_cases hd : Dropped buffer.length
    · rw [if_pos (Or.inr hd)]
      obtain ⟨d1, d2, -⟩ := hdrop.1 hd
      have hf := hfull.2 ⟨d1, d2⟩
      have h1 : resize (buf ++ fe r) BYTES_PER_BLOB = buf := by
        unfold resize
        rw [← hf, List.take_append_of_le_length (Nat.le_refl _), List.take_of_length_le (Nat.le_refl _)]
        have : buf.length - (buf ++ fe r).length = 0 := by simp
        rw [this]; simp
      have h3 : to_blob (resize (buf ++ fe r) BYTES_PER_BLOB) = .ok buf := by
        rw [h1]; unfold to_blob; rw [if_pos hf]
      refine ⟨blobs ++ [buf], 0, ?_, ?_, by simp, ?_, by decide, by decide⟩
      · simp only [pure, Except.pure, h3]
      · intro b hb
        rcases List.mem_append.1 hb with hb | hb
        · exact e5 b hb
        · cases List.mem_singleton.1 hb; exact hf
      · rw [List.flatten_append, ← e2]; simp
    · rw [if_neg (by rintro (h | h) <;> contradiction)]
      have hnf : buf.length ≠ BYTES_PER_BLOB := by
        intro h; obtain ⟨h1, h2⟩ := hfull.1 h; exact hd (hdrop.2 ⟨h1, h2, hr⟩)
      have hle : (buf ++ fe r).length ≤ BYTES_PER_BLOB := by
        rw [List.length_append, hfl]; unfold BYTES_PER_BLOB at *; omega
      have h1 : resize (buf ++ fe r) BYTES_PER_BLOB =
          buf ++ fe r ++ List.replicate (BYTES_PER_BLOB - (buf ++ fe r).length) 0 := by
        unfold resize; rw [List.take_of_length_le hle]
      have h2 : (resize (buf ++ fe r) BYTES_PER_BLOB).length = BYTES_PER_BLOB := by
        rw [h1, List.length_append, List.length_replicate]; omega
      have h3 : to_blob (resize (buf ++ fe r) BYTES_PER_BLOB) =
          .ok (resize (buf ++ fe r) BYTES_PER_BLOB) := by
        unfold to_blob; rw [if_pos h2]
      refine ⟨blobs ++ [resize (buf ++ fe r) BYTES_PER_BLOB],
        BYTES_PER_BLOB - (buf ++ fe r).length, ?_, ?_, by simp, ?_, ?_, ?_⟩
      · simp only [pure, Except.pure, h3]
      · intro b hb
        rcases List.mem_append.1 hb with hb | hb
        · exact e5 b hb
        · cases List.mem_singleton.1 hb; exact h2
      · rw [List.flatten_append, h1, List.map_append, List.flatten_append, ← e2]; simp
      · rw [List.length_append, hfl] at *; unfold BYTES_PER_BLOB at *; omega
      · rw [List.length_append, hfl] at *; unfold BYTES_PER_BLOB at *; omega

/-! ## Unpacking -/

theorem copy_ok {w i n : Nat} {stream y : List Bool} (hy : y.length = w)
    (hl : (i + (n + 1)) * w ≤ stream.length) :
    copyAt stream (i * w) y = .ok (stream.take (i * w) ++ y ++ stream.drop ((i + 1) * w)) ∧
      (stream.take (i * w) ++ y).length = (i + 1) * w ∧
      (stream.take (i * w) ++ y ++ stream.drop ((i + 1) * w)).length = stream.length := by
  have e : (i + (n + 1)) * w = i * w + w + n * w := by
    rw [Nat.add_mul, Nat.add_mul, Nat.one_mul]; omega
  have e' : (i + 1) * w = i * w + w := by rw [Nat.add_mul, Nat.one_mul]
  rw [e] at hl
  rw [e']
  refine ⟨?_, ?_, ?_⟩
  · unfold copyAt; rw [hy, if_pos (by omega)]
  · rw [List.length_append, List.length_take, hy]; omega
  · rw [List.length_append, List.length_append, List.length_take, hy, List.length_drop]; omega

theorem unpack_chunks_ok' (cs : List (List Bool)) (i : Nat) (stream : List Bool)
    (hc : ∀ c ∈ cs, (c.drop 2).length = BITS_PER_FIELD_ELEMENT)
    (hl : (i + cs.length) * BITS_PER_FIELD_ELEMENT ≤ stream.length) :
    unpack_chunks cs i stream = .ok (stream.take (i * BITS_PER_FIELD_ELEMENT) ++
      cs.flatMap (List.drop 2) ++ stream.drop ((i + cs.length) * BITS_PER_FIELD_ELEMENT)) := by
  induction cs generalizing i stream with
  | nil => simp [unpack_chunks, pure, Except.pure]
  | cons c cs ih =>
    obtain ⟨h1, h2, h3⟩ := copy_ok (hc c List.mem_cons_self) hl
    have e : (i + 1 + cs.length) = i + (cs.length + 1) := by omega
    have ih' := ih (i + 1) _ (fun b hb => hc b (List.mem_cons_of_mem _ hb))
      (by rw [h3, e]; exact hl)
    have hA : List.drop ((i + (cs.length + 1)) * BITS_PER_FIELD_ELEMENT)
        (stream.take (i * BITS_PER_FIELD_ELEMENT) ++ c.drop 2) = [] :=
      List.drop_of_length_le (by rw [h2]; exact Nat.mul_le_mul_right _ (by omega))
    unfold unpack_chunks
    rw [h1]
    simp only [bind, Except.bind]
    rw [ih', e, List.take_append_of_le_length (Nat.le_of_eq h2.symm),
      List.take_of_length_le (Nat.le_of_eq h2), List.drop_append, h2,
      hA, List.drop_drop, List.flatMap_cons, List.nil_append, List.length_cons]
    have e4 : (i + 1) * BITS_PER_FIELD_ELEMENT + ((i + (cs.length + 1)) * BITS_PER_FIELD_ELEMENT -
        (i + 1) * BITS_PER_FIELD_ELEMENT) = (i + (cs.length + 1)) * BITS_PER_FIELD_ELEMENT :=
      Nat.add_sub_cancel' (Nat.mul_le_mul_right _ (by omega))
    rw [e4]
    simp only [List.append_assoc]

theorem unpack_chunks_ok (cs : List (List Bool)) (i : Nat) (stream : List Bool)
    (hc : ∀ c ∈ cs, c.length = 256) (hl : (i + cs.length) * 254 ≤ stream.length) :
    unpack_chunks cs i stream = .ok (stream.take (i * 254) ++ cs.flatMap (List.drop 2) ++
      stream.drop ((i + cs.length) * 254)) :=
  unpack_chunks_ok' cs i stream (fun c h => by rw [List.length_drop, hc c h]; rfl) hl

theorem blob_chunks {blobs : List (List UInt8)} (h : ∀ b ∈ blobs, b.length = BYTES_PER_BLOB) :
    (blobs.flatMap fun blob => chunksExact 256 (bitsOf blob)) =
      chunksExact 256 (bitsOf blobs.flatten) := by
  induction blobs with
  | nil => rfl
  | cons b bs ih =>
    have hb := h b List.mem_cons_self
    rw [List.flatMap_cons, List.flatten_cons, bitsOf_append, chunks_append (by decide) (by
      rw [bitsOf_length, hb]; decide), ih fun b hb => h b (List.mem_cons_of_mem _ hb)]

theorem fe_chunks {xs : List (List Bool)} {z : Nat} (hx : ∀ x ∈ xs, x.length ≤ 254) (hz : 32 ∣ z) :
    chunksExact 256 (bitsOf ((xs.map fe).flatten ++ List.replicate z 0)) =
      xs.map feBits ++ List.replicate (z / 32) (List.replicate 256 false) := by
  have h1 : bitsOf ((xs.map fe).flatten) = (xs.map feBits).flatten := by
    induction xs with
    | nil => rfl
    | cons x xs ih =>
      rw [List.map_cons, List.flatten_cons, bitsOf_append, ih fun y hy => hx y (List.mem_cons_of_mem _ hy),
        bitsOf_fe (hx x List.mem_cons_self)]; rfl
  have h2 : bitsOf (List.replicate z 0) =
      (List.replicate (z / 32) (List.replicate 256 false)).flatten := by
    rw [bitsOf_zeros, List.flatten_replicate_replicate]
    congr 1; omega
  rw [bitsOf_append, h1, h2, ← List.flatten_append]
  have := chunks_flatten (n := 256) (by decide)
    (l := xs.map feBits ++ List.replicate (z / 32) (List.replicate 256 false)) (r := []) (by
      intro a ha
      rcases List.mem_append.1 ha with ha | ha
      · obtain ⟨x, hx', rfl⟩ := List.mem_map.1 ha
        exact feBits_length (hx x hx')
      · rw [List.eq_of_mem_replicate ha, List.length_replicate]) (by decide)
  rwa [List.append_nil] at this

/-- what comes out of blobs made of elements -/
theorem unpack_ok {blobs : List (List UInt8)} {xs : List (List Bool)} {z : Nat}
    (hb : ∀ b ∈ blobs, b.length = BYTES_PER_BLOB) (hx : ∀ x ∈ xs, x.length ≤ 254) (hz : 32 ∣ z)
    (hf : blobs.flatten = (xs.map fe).flatten ++ List.replicate z 0) :
    ∃ k, unpack_from_blobs blobs = .ok (bytesOf
        (xs.flatMap (fun x => x ++ List.replicate (254 - x.length) false) ++
          List.replicate k false)) ∧
      (xs.flatMap (fun x => x ++ List.replicate (254 - x.length) false)).length + k =
        blobs.length * BYTES_PER_BLOB * 8 := by
  have hc := blob_chunks hb
  rw [hf, fe_chunks hx hz] at hc
  have hlen : blobs.length * BYTES_PER_BLOB = xs.length * 32 + z := by
    have := congrArg List.length hf
    rw [sum_const_length hb, List.length_append, sum_const_length (n := 32), List.length_map,
      List.length_replicate] at this
    · exact this
    · intro a ha
      obtain ⟨x, hx', rfl⟩ := List.mem_map.1 ha
      exact fe_length (hx x hx')
  have hxl : (xs.flatMap (fun x => x ++ List.replicate (254 - x.length) false)).length =
      xs.length * 254 := by
    rw [List.flatMap_def, sum_const_length (n := 254)]
    · simp
    · intro a ha
      obtain ⟨x, hx', rfl⟩ := List.mem_map.1 ha
      have := hx x hx'
      simp; omega
  have hmap : (xs.map feBits ++ List.replicate (z / 32) (List.replicate 256 false)).flatMap
      (List.drop 2) = xs.flatMap (fun x => x ++ List.replicate (254 - x.length) false) ++
        List.replicate (z / 32 * 254) false := by
    rw [List.flatMap_append]
    congr 1
    · rw [List.flatMap_map]; rfl
    · rw [List.flatMap_replicate, List.drop_replicate, List.flatten_replicate_replicate]
  have hu := unpack_chunks_ok
    (xs.map feBits ++ List.replicate (z / 32) (List.replicate 256 false)) 0
    (bitsOf (List.replicate (blobs.length * BYTES_PER_BLOB) 0)) (by
      intro a ha
      rcases List.mem_append.1 ha with ha | ha
      · obtain ⟨x, hx', rfl⟩ := List.mem_map.1 ha
        exact feBits_length (hx x hx')
      · rw [List.eq_of_mem_replicate ha, List.length_replicate]) (by
      rw [bitsOf_length, List.length_replicate, List.length_append, List.length_map,
        List.length_replicate]
      omega)
  rw [hmap, Nat.zero_mul, List.take_zero, List.nil_append, bitsOf_zeros, List.drop_replicate,
    List.append_assoc, List.replicate_append_replicate] at hu
  refine ⟨z / 32 * 254 + (blobs.length * BYTES_PER_BLOB * 8 -
    (0 + (xs.map feBits ++ List.replicate (z / 32) (List.replicate 256 false)).length) * 254),
    ?_, ?_⟩
  · unfold unpack_from_blobs BITS_PER_SERIALIZED_FIELD_ELEMENT BYTES_PER_FIELD_ELEMENT
    simp only [bind, Except.bind]
    rw [show (8 * 32 : Nat) = 256 from rfl, hc, bitsOf_zeros, hu]
    rfl
  · rw [hxl, List.length_append, List.length_map, List.length_replicate]
    omega

/-! ## There and back -/

theorem kept_le (buffer : List UInt8) : ∀ x ∈ kept buffer, x.length ≤ 254 := by
  intro x hx
  have hrl : (chunksRemainder 254 (bitsOf buffer)).length < 254 := by
    rw [remainder_length]; exact Nat.mod_lt _ (by decide)
  unfold kept at hx
  dsimp only at hx
  split at hx
  · exact Nat.le_of_eq (chunk_length x hx)
  · rcases List.mem_append.1 hx with hx | hx
    · exact Nat.le_of_eq (chunk_length x hx)
    · cases List.mem_singleton.1 hx; omega

theorem full_chunks {l : List (List Bool)} (h : ∀ c ∈ l, c.length = 254) :
    l.flatMap (fun x => x ++ List.replicate (254 - x.length) false) = l.flatten := by
  induction l with
  | nil => rfl
  | cons c l ih =>
    rw [List.flatMap_cons, List.flatten_cons, ih fun b hb => h b (List.mem_cons_of_mem _ hb),
      h c List.mem_cons_self]
    simp

/-- the bits kept, and how they are padded -/
theorem kept_bits (buffer : List UInt8) :
    ∃ p, (kept buffer).flatMap (fun x => x ++ List.replicate (254 - x.length) false) =
      (bitsOf (buffer.take (if Dropped buffer.length then
        buffer.length / BLOB_ROOM * BLOB_ROOM else buffer.length))) ++ List.replicate p false := by
  have hp := chunks_parts (n := 254) (by decide) (bitsOf buffer)
  have hcl : ∀ c ∈ chunksExact 254 (bitsOf buffer), c.length = 254 := chunk_length
  have hd := dropped_iff buffer
  have hcount : (chunksExact 254 (bitsOf buffer)).length = buffer.length * 8 / 254 := by
    rw [chunks_count, bitsOf_length]
  unfold kept
  generalize chunksExact 254 (bitsOf buffer) = cs at *
  generalize chunksRemainder 254 (bitsOf buffer) = r at *
  dsimp only
  by_cases h : Dropped buffer.length
  · rw [if_pos (Or.inr h), if_pos h, full_chunks hcl]
    obtain ⟨d1, d2, d3⟩ := hd.1 h
    have hR : BLOB_ROOM = 130048 := by decide
    refine ⟨0, ?_⟩
    have h1 : buffer = buffer.take (buffer.length / BLOB_ROOM * BLOB_ROOM) ++
        buffer.drop (buffer.length / BLOB_ROOM * BLOB_ROOM) := (List.take_append_drop _ _).symm
    have h2 : (bitsOf (buffer.take (buffer.length / BLOB_ROOM * BLOB_ROOM))).length =
        cs.flatten.length := by
      rw [bitsOf_length, List.length_take, sum_const_length hcl, hcount]
      obtain ⟨g1, g2, g3⟩ := h
      rw [hR] at *
      rw [hcount] at d1
      omega
    have h3 : bitsOf buffer = bitsOf (buffer.take (buffer.length / BLOB_ROOM * BLOB_ROOM)) ++
        bitsOf (buffer.drop (buffer.length / BLOB_ROOM * BLOB_ROOM)) := by
      rw [← bitsOf_append, List.take_append_drop]
    rw [h3] at hp
    rw [(List.append_inj hp h2.symm).1]
    simp
  · rw [if_neg h, List.take_of_length_le (Nat.le_refl _)]
    by_cases hr : r = []
    · rw [if_pos (Or.inl hr), full_chunks hcl]
      subst hr
      exact ⟨0, by simpa using hp⟩
    · rw [if_neg (by rintro (h' | h') <;> contradiction), List.flatMap_append, full_chunks hcl]
      refine ⟨254 - r.length, ?_⟩
      simp only [List.flatMap_cons, List.flatMap_nil, List.append_nil]
      rw [← List.append_assoc, hp]

/-- what the round trip gives back -/
theorem roundtrip (buffer : List UInt8) :
    ∃ blobs k, pack_into_blobs buffer = .ok blobs ∧
      unpack_from_blobs blobs = .ok (buffer.take (if Dropped buffer.length then
        buffer.length / BLOB_ROOM * BLOB_ROOM else buffer.length) ++ List.replicate k 0) ∧
      (buffer.take (if Dropped buffer.length then
        buffer.length / BLOB_ROOM * BLOB_ROOM else buffer.length)).length + k =
        blobs.length * BYTES_PER_BLOB ∧ blobs ≠ [] := by
  obtain ⟨blobs, z, h1, h2, h3, h4, h5, -⟩ := pack_ok buffer
  obtain ⟨k, h6, h7⟩ := unpack_ok h2 (kept_le buffer) h5 h4
  obtain ⟨p, h8⟩ := kept_bits buffer
  rw [h8] at h6 h7
  generalize (buffer.take (if Dropped buffer.length then
        buffer.length / BLOB_ROOM * BLOB_ROOM else buffer.length)) = data at *
  rw [List.length_append, bitsOf_length, List.length_replicate] at h7
  rw [List.append_assoc, List.replicate_append_replicate] at h6
  have hpk : p + k = (blobs.length * BYTES_PER_BLOB - data.length) * 8 := by omega
  refine ⟨blobs, blobs.length * BYTES_PER_BLOB - data.length, h1, ?_, by omega, h3⟩
  rw [h6, hpk, ← bitsOf_zeros, ← bitsOf_append, bytesOf_bitsOf]

/-! ## Sizes -/

theorem zeros32_canonical : ofBeBytes (List.replicate 32 0) < MODULUS := by decide +kernel

/-- every element of every blob packed is canonical -/
theorem pack_valid {buffer : List UInt8} {blobs : List (List UInt8)}
    (h : pack_into_blobs buffer = .ok blobs) : ∀ b ∈ blobs, ValidBlob b := by
  obtain ⟨blobs', z, h1, h2, -, h4, h5, -⟩ := pack_ok buffer
  rw [h] at h1
  cases h1
  have hL : ∀ x ∈ (kept buffer).map fe ++ List.replicate (z / 32) (List.replicate 32 (0 : UInt8)),
      x.length = 32 ∧ ofBeBytes x < MODULUS := by
    intro x hx
    rcases List.mem_append.1 hx with hx | hx
    · obtain ⟨y, hy, rfl⟩ := List.mem_map.1 hx
      have := kept_le buffer y hy
      exact ⟨fe_length this, fe_canonical this⟩
    · rw [List.eq_of_mem_replicate hx]
      exact ⟨List.length_replicate, zeros32_canonical⟩
  have hflat : blobs.flatten = ((kept buffer).map fe ++
      List.replicate (z / 32) (List.replicate 32 (0 : UInt8))).flatten := by
    rw [h4, List.flatten_append, List.flatten_replicate_replicate, Nat.div_mul_cancel h5]
  have hch : ∀ l : List (List UInt8), (∀ b ∈ l, b.length = BYTES_PER_BLOB) →
      l.flatMap (chunksExact 32) = chunksExact 32 l.flatten := by
    intro l hl
    induction l with
    | nil => rfl
    | cons b bs ih =>
      rw [List.flatMap_cons, List.flatten_cons, chunks_append (by decide) (by
        rw [hl b List.mem_cons_self]; decide), ih fun b hb => hl b (List.mem_cons_of_mem _ hb)]
  have hc := hch blobs h2
  have hc' := chunks_flatten (n := 32) (by decide) (fun x hx => (hL x hx).1) (r := []) (by decide)
  rw [List.append_nil] at hc'
  rw [hflat, hc'] at hc
  intro b hb
  refine ⟨h2 b hb, fun k hk => ?_⟩
  have hmem : (b.drop (k * 32)).take 32 ∈ chunksExact 32 b := by
    unfold chunksExact
    refine List.mem_map.2 ⟨k, List.mem_range.2 ?_, rfl⟩
    rw [h2 b hb]
    exact hk
  have : (b.drop (k * 32)).take 32 ∈ blobs.flatMap (chunksExact 32) :=
    List.mem_flatMap.2 ⟨b, hb, hmem⟩
  rw [hc] at this
  exact (hL _ this).2

theorem pack_count {buffer : List UInt8} {blobs : List (List UInt8)}
    (h : pack_into_blobs buffer = .ok blobs) : blobs.length = blobsFor buffer.length := by
  obtain ⟨blobs', z, h1, h2, h3, h4, h5, h6⟩ := pack_ok buffer
  rw [h] at h1
  cases h1
  have hlen : blobs.length * BYTES_PER_BLOB = (kept buffer).length * 32 + z := by
    have := congrArg List.length h4
    rw [sum_const_length h2, List.length_append, sum_const_length (n := 32), List.length_map,
      List.length_replicate] at this
    · exact this
    · intro a ha
      obtain ⟨x, hx', rfl⟩ := List.mem_map.1 ha
      exact fe_length (kept_le buffer x hx')
  have hr : chunksRemainder 254 (bitsOf buffer) = [] ↔ buffer.length * 8 % 254 = 0 := by
    rw [← bitsOf_length, ← remainder_length, List.length_eq_zero_iff]
  have hk : (kept buffer).length = if buffer.length * 8 % 254 = 0 ∨ Dropped buffer.length then
      buffer.length * 8 / 254 else buffer.length * 8 / 254 + 1 := by
    unfold kept
    simp only [hr]
    split
    · rw [chunks_count, bitsOf_length]
    · rw [List.length_append, chunks_count, bitsOf_length]; rfl
  have hb : buffer = [] ↔ buffer.length = 0 := List.length_eq_zero_iff.symm
  have hpos : 0 < blobs.length := List.length_pos_iff.2 h3
  simp only [hb] at h6
  rw [hk] at hlen
  have hR : BLOB_ROOM = 130048 := by decide
  have hD : Dropped buffer.length ↔
      130048 ≤ buffer.length ∧ 0 < buffer.length % 130048 ∧ buffer.length % 130048 < 32 := by
    unfold Dropped; rw [hR]
  unfold blobsFor
  rw [hR]
  unfold BYTES_PER_BLOB at *
  generalize buffer.length = n at *
  clear hr hk hb h4 h2 h3 h
  generalize blobs.length = c at *
  have e3 : n * 8 / 254 = 4096 * (n / 130048) + n % 130048 * 8 / 254 := by
    have h : n * 8 = n % 130048 * 8 + 254 * (4096 * (n / 130048)) := by omega
    rw [h, Nat.add_mul_div_left _ _ (by decide)]
    omega
  have e4 : n * 8 % 254 = n % 130048 * 8 % 254 := by
    have h : n * 8 = n % 130048 * 8 + 254 * (4096 * (n / 130048)) := by omega
    rw [h, Nat.add_mul_mod_self_left]
  rw [e3, e4] at hlen
  have hs : n % 130048 < 130048 := Nat.mod_lt _ (by decide)
  have hn : n = 130048 * (n / 130048) + n % 130048 := by omega
  generalize hq : n / 130048 = q at *
  generalize hs' : n % 130048 = s at *
  subst hn
  have g3 : s * 8 / 254 = 0 ↔ s < 32 := by omega
  have g4 : s * 8 / 254 < 4096 := by omega
  have g6 : s * 8 / 254 = 4095 → (s * 8 % 254 = 0 → False) ∨ s * 8 % 254 = 0 := by omega
  have g7 : s = 0 → s * 8 / 254 = 0 ∧ s * 8 % 254 = 0 := by omega
  have g8 : s * 8 % 254 = 0 → s < 32 → s = 0 := by omega
  generalize s * 8 / 254 = m at *
  generalize s * 8 % 254 = m' at *
  have hceil : (130048 * q + s + 130048 - 1) / 130048 = if s = 0 then q else q + 1 := by
    split <;> omega
  rw [hceil]
  by_cases d : Dropped (130048 * q + s)
  · rw [if_pos (Or.inr d)] at hlen
    have d' := hD.1 d
    simp only [d, if_true]
    split <;> split at h6 <;> omega
  · have d' := fun h => d (hD.2 h)
    simp only [d, or_false, if_false] at hlen ⊢
    split at hlen <;> split at h6 <;> split <;> (try split) <;> omega

end Verif.Blobs
