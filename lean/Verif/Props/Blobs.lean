import Verif.Proofs.Blobs

/-! # C42, C43: `ec blobs` -/

namespace Verif.Props

open Spec Blobs

/-! ## C43 -/

/-- **C43** Packing never fails, for any bytes. -/
theorem C43_packs (buffer : List UInt8) : ∃ blobs, pack_into_blobs buffer = .ok blobs := by
  obtain ⟨blobs, _, h, -⟩ := pack_ok buffer
  exact ⟨blobs, h⟩

/-- **C43** Every blob it makes has the size of a blob and consists of canonical field elements. -/
theorem C43_valid (buffer : List UInt8) (blobs : List (List UInt8))
    (h : pack_into_blobs buffer = .ok blobs) : ∀ b ∈ blobs, ValidBlob b :=
  pack_valid h

/-- **C43** And it makes no more blobs than the data needs (one for no data). -/
theorem C43_count (buffer : List UInt8) (blobs : List (List UInt8))
    (h : pack_into_blobs buffer = .ok blobs) : blobs.length = blobsFor buffer.length :=
  pack_count h

/-- An element with all 254 bits set is canonical. -/
example : ofBeBytes (0x3f :: List.replicate 31 0xff) < MODULUS ∧
    (field_element_from_bits (List.replicate 254 true)).toOption =
      some (0x3f :: List.replicate 31 0xff) := by decide +kernel

/-! ## C42

The claim as stated is false: `ec blobs encode` drops the end of some payloads, see `C42_drops`. -/

/-- **C42** Without framing, the data is recovered, followed by zeros up to the end of the last blob,
unless its length is one of those of which the end is dropped. -/
theorem C42_raw_partial (buffer : List UInt8) (h : ¬ Dropped buffer.length) :
    ∃ blobs k, encode buffer .Raw = .ok blobs ∧
      decode blobs .Raw = .ok (buffer ++ List.replicate k 0) := by
  obtain ⟨blobs, k, h1, h2, -⟩ := roundtrip buffer
  rw [if_neg h, List.take_of_length_le (Nat.le_refl _)] at h2
  refine ⟨blobs, k, h1, ?_⟩
  unfold decode
  rw [h2]; rfl

theorem header_size {n : Nat} (h : n < 2 ^ 32) : ofBeBytes (beBytes32 n) = n := by
  simp only [ofBeBytes, beBytes32, List.map_cons, List.map_nil, List.foldl_cons, List.foldl_nil,
    UInt8.toNat_ofNat']
  omega

theorem sized_ok {payload stream : List UInt8} (h : payload.length < 2 ^ 32)
    (hp : payload.length ≤ stream.length) :
    payload_from_sized (0 :: beBytes32 payload.length ++ stream) =
      .ok (stream.take payload.length) := by
  have hl : (0 :: beBytes32 payload.length ++ stream).length = stream.length + 5 := by
    simp [beBytes32]
  have ht : (0 :: beBytes32 payload.length ++ stream).take 5 = 0 :: beBytes32 payload.length := by
    simp [beBytes32]
  have hd : (0 :: beBytes32 payload.length ++ stream).drop 5 = stream := by
    simp [beBytes32]
  unfold payload_from_sized HEADER_SIZE
  rw [if_neg (by rw [hl]; omega)]
  dsimp only
  rw [ht, hd]
  simp only [List.headD_cons, List.drop_succ_cons, List.drop_zero, header_size h]
  rw [if_neg (by decide), if_neg (by omega), if_pos hp]

/-- **C42** With the size framed, every payload below 4 GiB is recovered exactly, unless its length
with the header is one of those of which the end is dropped. -/
theorem C42_sized_partial (payload : List UInt8) (hl : payload.length < 2 ^ 32)
    (h : ¬ Dropped (payload.length + 5)) :
    ∃ blobs, encode payload .Sized = .ok blobs ∧ decode blobs .Sized = .ok payload := by
  obtain ⟨blobs, k, h1, h2, -⟩ := roundtrip (0 :: beBytes32 payload.length ++ payload)
  have hlen : (0 :: beBytes32 payload.length ++ payload).length = payload.length + 5 := by
    simp [beBytes32]
  rw [if_neg (by rwa [hlen]), List.take_of_length_le (Nat.le_refl _), List.append_assoc] at h2
  refine ⟨blobs, ?_, ?_⟩
  · unfold encode sized_header
    rw [if_pos hl]
    exact h1
  · unfold decode
    rw [h2]
    dsimp only [Bind.bind, Except.bind]
    rw [sized_ok hl (by simp), List.take_append_of_le_length (Nat.le_refl _),
      List.take_of_length_le (Nat.le_refl _)]

/-- **C42** Longer payloads are refused. -/
theorem C42_too_long (payload : List UInt8) (hl : 2 ^ 32 ≤ payload.length) :
    encode payload .Sized = .error .invalidPayloadSize := by
  unfold encode sized_header
  rw [if_neg (by omega)]
  rfl

/-- **C42** What happens to the other lengths: the bytes beyond the last full blob come back as
zeros, and nothing reports it. -/
theorem C42_dropped (payload : List UInt8) (hl : payload.length < 2 ^ 32)
    (h : Dropped (payload.length + 5)) :
    ∃ blobs, encode payload .Sized = .ok blobs ∧
      decode blobs .Sized = .ok (payload.take (payload.length - (payload.length + 5) % BLOB_ROOM) ++
        List.replicate ((payload.length + 5) % BLOB_ROOM) 0) := by
  obtain ⟨blobs, k, h1, h2, h3, h4⟩ := roundtrip (0 :: beBytes32 payload.length ++ payload)
  have hcount := pack_count h1
  have hpos : 0 < blobs.length := List.length_pos_iff.2 h4
  have hlen : (0 :: beBytes32 payload.length ++ payload).length = payload.length + 5 := by
    simp [beBytes32]
  rw [hlen] at h2 h3 hcount
  rw [if_pos h] at h2 h3
  have hR : BLOB_ROOM = 130048 := by decide
  have hB : BYTES_PER_BLOB = 131072 := rfl
  have hd := h
  unfold Dropped at hd
  have hc : blobs.length = (payload.length + 5) / BLOB_ROOM := by
    rw [hcount]; unfold blobsFor; rw [if_neg (by rw [hR] at hd ⊢; omega), if_pos h]
  have htake : (0 :: beBytes32 payload.length ++ payload).take
      ((payload.length + 5) / BLOB_ROOM * BLOB_ROOM) = 0 :: beBytes32 payload.length ++
        payload.take (payload.length - (payload.length + 5) % BLOB_ROOM) := by
    have e : (payload.length + 5) / BLOB_ROOM * BLOB_ROOM =
        (0 :: beBytes32 payload.length).length +
          (payload.length - (payload.length + 5) % BLOB_ROOM) := by
      have : (0 :: beBytes32 payload.length).length = 5 := by simp [beBytes32]
      rw [this, hR] at *
      omega
    rw [e, List.take_length_add_append]
  rw [htake, List.append_assoc] at h2
  rw [htake, List.length_append, List.length_take, hc] at h3
  have hh : (0 :: beBytes32 payload.length).length = 5 := by simp [beBytes32]
  rw [hh] at h3
  have hm : min (payload.length - (payload.length + 5) % BLOB_ROOM) payload.length =
    payload.length - (payload.length + 5) % BLOB_ROOM := by omega
  rw [hm] at h3
  have hmod : (payload.length + 5) % BLOB_ROOM ≤ payload.length := by
    rw [hR] at *; omega
  have hk : (payload.length + 5) % BLOB_ROOM ≤ k := by
    clear htake h2 h1 hc hcount hpos
    rw [hB] at h3
    rw [hR] at hd h3 hmod ⊢
    omega
  refine ⟨blobs, ?_, ?_⟩
  · unfold encode sized_header
    rw [if_pos hl]
    exact h1
  · unfold decode
    rw [h2]
    dsimp only [Bind.bind, Except.bind]
    generalize (payload.length + 5) % BLOB_ROOM = r at *
    have hsl : (payload.take (payload.length - r) ++ List.replicate k (0 : UInt8)).length =
        payload.length - r + k := by
      rw [List.length_append, List.length_take, List.length_replicate]; omega
    rw [sized_ok hl (by rw [hsl]; omega)]
    congr 1
    rw [List.take_append, List.take_of_length_le (by rw [List.length_take]; omega),
      List.length_take, List.take_replicate]
    congr 2
    omega

/-- **C42** So the claim fails: 130044 ones (which with the header are one byte more than fits one
blob) do not come back. -/
theorem C42_drops : ∃ payload blobs got, encode payload .Sized = .ok blobs ∧
    decode blobs .Sized = .ok got ∧ got ≠ payload := by
  have hlen : (List.replicate 130044 (1 : UInt8)).length = 130044 := List.length_replicate
  obtain ⟨blobs, h1, h2⟩ := C42_dropped (List.replicate 130044 1) (by rw [hlen]; decide)
    (by rw [hlen]; decide)
  refine ⟨_, blobs, _, h1, h2, ?_⟩
  rw [hlen]
  intro h
  have : (0 : UInt8) ∈ List.replicate 130044 (1 : UInt8) := by
    rw [← h]
    refine List.mem_append_right _ ?_
    exact List.mem_replicate.2 ⟨by decide, rfl⟩
  exact absurd (List.eq_of_mem_replicate this) (by decide)

/-- **C42** Decoding can also panic instead of reporting an error: on a valid blob whose header
claims 131071 bytes, fewer than the stream has but more than follow the header. -/
theorem C42_decode_panics : ∃ blobs, (∀ b ∈ blobs, ValidBlob b) ∧
    decode blobs .Sized = .error .panic := by
  obtain ⟨blobs, k, h1, h2, h3, -⟩ := roundtrip [0, 0, 1, 255, 255]
  have hc := pack_count h1
  have hd : ¬ Dropped [0, 0, 1, 255, (255 : UInt8)].length := by decide
  rw [if_neg hd] at h2 h3
  have hb : blobs.length = 1 := by rw [hc]; decide
  rw [hb] at h3
  have hk : k = 131067 := by
    have : BYTES_PER_BLOB = 131072 := rfl
    simp only [List.length_take, List.length_cons, List.length_nil] at h3
    omega
  refine ⟨blobs, pack_valid h1, ?_⟩
  unfold decode
  rw [h2]
  dsimp only [Bind.bind, Except.bind]
  rw [List.take_of_length_le (Nat.le_refl _), hk]
  have hl : ([0, 0, 1, 255, 255] ++ List.replicate 131067 (0 : UInt8)).length = 131072 := by
    rw [List.length_append, List.length_replicate]; rfl
  have hrl : (List.replicate 131067 (0 : UInt8)).length = 131067 := List.length_replicate
  unfold payload_from_sized HEADER_SIZE
  rw [hl]
  generalize List.replicate 131067 (0 : UInt8) = z at *
  have e : ofBeBytes [0, 1, 255, (255 : UInt8)] = 131071 := by decide
  rw [if_neg (by decide)]
  simp only [List.cons_append, List.nil_append, List.take_succ_cons, List.take_zero,
    List.drop_succ_cons, List.drop_zero, List.headD_cons, e, hrl]
  rw [if_neg (by decide), if_neg (by decide), if_neg (by decide)]

/-- The round trips apply to payloads of any usual length: here to 3 and to 200000 bytes. -/
example : ¬ Dropped ([1, 2, 3] : List UInt8).length ∧ ¬ Dropped (200000 + 5) ∧
    Dropped 130049 ∧ Dropped (130044 + 5) := by decide

end Verif.Props
