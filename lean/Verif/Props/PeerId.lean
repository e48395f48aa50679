import Verif.Proofs.PeerId

/-! # C79: peer ids as text -/

namespace Verif.Props

open Net

/-- A multihash as `multihash` can hold it: the code is a 64-bit integer, the digest has at most 64
bytes. -/
def IsMultihash (h : Multihash) : Prop := h.code < 2 ^ 64 ∧ h.digest.length ≤ 64

/-- A peer id as `networking` can make it: it names its key by a SHA-256 hash, or holds a key of at
most 42 bytes. -/
def IsPeerId (id : PeerId) : Prop :=
  IsMultihash id.multihash ∧
    (id.multihash.code = 0x12 ∨ id.multihash.code = 0 ∧ id.multihash.digest.length ≤ 42)

/-- **C79** Peer ids are made of exactly these multihashes, and hold them unchanged. -/
theorem C79_made (h : Multihash) (hh : IsMultihash h) (id : PeerId) :
    PeerId.from_multihash h = some id ↔ id.multihash = h ∧ IsPeerId id := by
  obtain ⟨m⟩ := id
  constructor
  · intro e
    unfold PeerId.from_multihash at e
    split at e
    · next hc => cases e; exact ⟨rfl, hh, .inl hc⟩
    · split at e
      · next hc => cases e; exact ⟨rfl, hh, .inr hc⟩
      · cases e
  · rintro ⟨rfl, -, h | h⟩
    · exact if_pos h
    · have h1 : ¬ m.code = Sha2_256 := by
        intro h'; rw [show m.code = 0 from h.1] at h'; cases h'
      exact (if_neg h1).trans (if_pos h)

/-- **C79** The bytes of a peer id are read back as that peer id. -/
theorem C79_bytes (id : PeerId) (h : IsPeerId id) : PeerId.from_bytes id.to_bytes = some id := by
  unfold PeerId.from_bytes PeerId.to_bytes
  rw [multihash_roundtrip h.1.1 h.1.2]
  exact (C79_made _ h.1 id).2 ⟨rfl, h⟩

/-- **C79** The text of a peer id is read back as that peer id. -/
theorem C79_text (id : PeerId) (h : IsPeerId id) : PeerId.from_str id.to_base58 = some id := by
  unfold PeerId.from_str PeerId.to_base58
  rw [bs58_roundtrip]
  exact C79_bytes id h

/-- **C79** So different peer ids have different texts. -/
theorem C79_injective (a b : PeerId) (ha : IsPeerId a) (hb : IsPeerId b)
    (h : a.to_base58 = b.to_base58) : a = b := by
  have := C79_text a ha
  rw [h, C79_text b hb] at this
  exact (Option.some.inj this).symm

/-- **C79** The text is the base-58 text of the bytes, which are the code of the hash function, the
size of the digest and the digest. -/
theorem C79_written (id : PeerId) (h : IsPeerId id) :
    id.to_bytes = Spec.multihashBytes id.multihash ∧
      ∀ s, id.to_base58 = s ↔ Spec.Text58 (Spec.multihashBytes id.multihash) s := by
  have e : id.to_bytes = Spec.multihashBytes id.multihash := by
    obtain ⟨⟨c, d⟩⟩ := id
    have hc : c < 128 := by rcases h.2 with h | h <;> simp only at h <;> omega
    have hd : d.length < 128 := Nat.lt_of_le_of_lt h.1.2 (by decide)
    simp only [PeerId.to_bytes, Multihash.to_bytes, Spec.multihashBytes]
    rw [varint_encode.eq_1 c, varint_encode.eq_1 d.length, if_pos hc, if_pos hd]
    rfl
  exact ⟨e, fun s => by rw [← e]; exact bs58_text _ s⟩

/-- **C79** A text is read as a peer id exactly if it is the base-58 text of bytes that are read as
that peer id. -/
theorem C79_read (s : List Char) (id : PeerId) :
    PeerId.from_str s = some id ↔ ∃ data, Spec.Text58 data s ∧ PeerId.from_bytes data = some id := by
  unfold PeerId.from_str
  simp only [Option.bind_eq_bind, Option.bind_eq_some_iff, bs58_read]

theorem varint_read_lt (l : List UInt8) (i n m : Nat) (rest : List UInt8)
    (h : varint_read i n l = some (m, rest)) : m < 2 ^ 64 := by
  induction l generalizing i n with
  | nil => cases h
  | cons b l ih =>
    unfold varint_read at h
    split at h
    · cases h
    · dsimp only at h
      split at h
      · split at h
        · cases h
        · cases h; exact Nat.mod_lt _ (by decide)
      · exact ih _ _ h

/-- **C79** Whatever bytes or text are read, the result is a peer id. -/
theorem C79_sound (s : List Char) (data : List UInt8) (id : PeerId) :
    (PeerId.from_bytes data = some id → IsPeerId id) ∧
    (PeerId.from_str s = some id → IsPeerId id) := by
  have key : ∀ data, PeerId.from_bytes data = some id → IsPeerId id := by
    intro data h
    unfold PeerId.from_bytes at h
    simp only [Option.bind_eq_bind, Option.bind_eq_some_iff] at h
    obtain ⟨m, hm, h⟩ := h
    refine ((C79_made m ?_ id).1 h).2
    unfold Multihash.from_bytes at hm
    simp only [Option.bind_eq_bind, Option.bind_eq_some_iff] at hm
    obtain ⟨⟨code, d1⟩, h1, ⟨size, d2⟩, h2, hm⟩ := hm
    dsimp only at hm
    split at hm
    · cases hm
    · split at hm
      · cases hm
      · split at hm
        · cases hm
        · cases hm
          refine ⟨varint_read_lt _ _ _ _ _ h1, ?_⟩
          simp only [List.length_take]
          omega
  refine ⟨key data, fun h => ?_⟩
  unfold PeerId.from_str at h
  simp only [Option.bind_eq_bind, Option.bind_eq_some_iff] at h
  obtain ⟨bytes, -, h⟩ := h
  exact key bytes h

/-- **C79** The text has only characters of base 58, which are letters and digits, so it can stand in a URL as it is. -/
theorem C79_characters (id : PeerId) :
    ∀ c ∈ id.to_base58, Spec.InAlphabet c ∧ c.isAlphanum = true := by
  intro c hc
  have := ((bs58_text id.to_bytes _).1 rfl).alphabet c hc
  exact ⟨this, this.1⟩

/-! ### Examples: the peer ids of the tests of `networking.rs` -/

/-- The peer id of `test_id_str_format`: a SHA-256 hash of 32 bytes -/
def hashedPeer : PeerId := ⟨0x12, [0x9d, 0xff, 0x3b, 0x17, 0xd7, 0x4c, 0xf4, 0xd3, 0x8a, 0x50, 0xd8,
  0xb6, 0x38, 0x3e, 0x92, 0xd1, 0x81, 0xa1, 0x03, 0x95, 0xa5, 0xe7, 0x3a, 0x72, 0x6d, 0xcc, 0xcb, 0xd2,
  0x1b, 0xf6, 0xf0, 0xb9]⟩

/-- The peer id of `test_peer_id_serde`: a key of 37 bytes. Its bytes begin with a zero. -/
def inlinePeer : PeerId := ⟨0, [0x08, 0x02, 0x12, 0x21, 0x03, 0xf6, 0x1e, 0x99, 0xfe, 0xe6, 0xd3,
  0x89, 0xca, 0x3d, 0x49, 0xd7, 0x14, 0x84, 0xf3, 0x21, 0x8f, 0xf3, 0xf9, 0xe5, 0xe9, 0xbb, 0x30, 0x64,
  0x11, 0x7e, 0x55, 0x05, 0xb1, 0xbd, 0x05, 0xa9, 0xed]⟩

example : IsPeerId hashedPeer ∧ IsPeerId inlinePeer := by
  unfold IsPeerId IsMultihash; decide +kernel

example : PeerId.from_str "QmYyQSo1c1Ym7orWxLYvCrM2EmxFTANf8wXmmE7DWjhx5N".toList =
    some hashedPeer := by
  decide +kernel

example : PeerId.from_str "16Uiu2HAmVDji3ShrqL9DLnQo3teJcEWiKqy9qKefFFFxrz2EYwde".toList =
    some inlinePeer := by
  decide +kernel

example : Spec.digit58 '1' = 0 ∧ Spec.digit58 'A' = 9 ∧ Spec.digit58 'z' = 57 := by decide +kernel

example : inlinePeer.to_bytes.take 2 = [0, 37] := by decide +kernel

/-- A key of 43 bytes is refused, and so are other hash functions and characters that are easily
confused. -/
example : PeerId.from_multihash ⟨0, List.replicate 43 7⟩ = none ∧
    PeerId.from_multihash ⟨0x13, List.replicate 64 7⟩ = none ∧
    PeerId.from_str "16Uiu2HAmVDji3ShrqL9DLnQo3teJcEWiKqy9qKefFFFxrz2EYwdO".toList = none := by
  decide +kernel

end Verif.Props
