import Verif.Proofs.SszCodec
import Verif.Proofs.SszCanonical
import Verif.Props.Ssz

/-! # SSZ encodings -/

namespace Verif.Props

open Json Ssz Spec

/-! ## C83: what is encoded can be decoded -/

/-- Decoding the encoding of a value gives the value back. -/
theorem C83_roundtrip (s : Schema) (hs : HasEncoding s = true) (v : s.Val) {bytes : List UInt8}
    (h : ser s v = some bytes) : de s bytes = some v :=
  de_ser s hs v h

/-- Different values have different encodings. -/
theorem C83_injective (s : Schema) (hs : HasEncoding s = true) (v w : s.Val) {bytes : List UInt8}
    (hv : ser s v = some bytes) (hw : ser s w = some bytes) : v = w :=
  Option.some.inj ((de_ser s hs v hv).symm.trans (de_ser s hs w hw))

/-- Bytes that are decoded are the encoding of the value that they are decoded to: none but the one
encoding of a value is accepted. -/
theorem C83_canonical (s : Schema) {bytes : List UInt8} (hl : bytes.length < 2 ^ 32) {v : s.Val}
    (h : de s bytes = some v) : ser s v = some bytes :=
  ser_de s hl h

/-- Different bytes are never decoded to the same value. -/
theorem C83_one_encoding (s : Schema) {bytes bytes' : List UInt8} (hl : bytes.length < 2 ^ 32)
    (hl' : bytes'.length < 2 ^ 32) {v : s.Val} (h : de s bytes = some v)
    (h' : de s bytes' = some v) : bytes = bytes' :=
  Option.some.inj ((ser_de s hl h).symm.trans (ser_de s hl' h'))

/-- Every value whose encoding has less than `2^32` bytes is encoded. -/
theorem C83_total (s : Schema) (hs : HasEncoding s = true) (v : s.Val)
    (h : encodedSize s v < 2 ^ 32) : ∃ bytes, ser s v = some bytes :=
  ser_some s hs v h

/-- Encodings have the sizes that they should have. -/
theorem C83_size (s : Schema) (v : s.Val) {bytes : List UInt8} (h : ser s v = some bytes) :
    bytes.length = encodedSize s v :=
  ser_length s v h

/-- Encodings of values of a type of fixed size have that size. -/
theorem C83_fixed (s : Schema) {n : Nat} (hn : fixedSize s = some n) (v : s.Val)
    {bytes : List UInt8} (h : ser s v = some bytes) : bytes.length = n :=
  (ser_length s v h).trans (size_fixed s hn v)

/-- The encoding of a field is found in the encoding of the struct, at the slot of the field or at the
offset that is written there. -/
theorem C83_field (fs : Fields) (v : fs.Val) {bytes : List UInt8}
    (h : ser (.record fs) v = some bytes) {name : String} {x : (s : Schema) × s.Val}
    (hx : fieldAt name fs v = some x) :
    ∃ element, ser x.1 x.2 = some element ∧ FoundAt bytes (slotOf name fs) x.1 element := by
  simp only [ser, Option.bind_eq_bind, Option.bind_eq_some_iff] at h
  obtain ⟨ps, hp, h⟩ := h
  obtain ⟨as, b, rest, rfl, hb, e⟩ := sers_at fs v hp hx
  exact ⟨b, hb, e ▸ compose_found h⟩

/-- The encoding of an element is found in the encoding of the collection. -/
theorem C83_element (l : Len) (s : Schema) (v : (Schema.seq l s).Val) {bytes : List UInt8}
    (h : ser (.seq l s) v = some bytes) {i : Nat} {x : s.Val} (hx : v.val[i]? = some x) :
    ∃ element, ser s x = some element ∧ FoundAt bytes (i * slotSize s) s element := by
  simp only [ser, Option.bind_eq_bind, Option.bind_eq_some_iff] at h
  obtain ⟨ys, hy, h⟩ := h
  obtain ⟨as, b, rest, hps, hb, e⟩ := mapM_at hy hx
  rw [hps] at h
  exact ⟨b, hb, e ▸ compose_found h⟩

/-- The types of both presets have encodings, all but `BlobsBundle`, which does not derive them. -/
theorem C83_presets (K : Consts) (hK : K ∈ [mainnetConsts, minimalConsts]) :
    ∀ p ∈ coreTypes K, Sszable p.2 = true → HasEncoding p.2 = true := by
  simp only [List.mem_cons, List.not_mem_nil, or_false] at hK
  rcases hK with rfl | rfl <;> decide +kernel

/-! ### Examples -/

/-- `test_byte_list_serde` of `byte_list.rs` -/
example : ser (.byteList 32) ⟨[255, 255], by decide⟩ = some [255, 255] ∧
    (de (.byteList 32) [255, 255]).map (·.val) = some [255, 255] := by decide +kernel

/-- An integer has its bytes in reverse. -/
example : ser (.int (2 ^ 64)) (⟨258, by decide⟩ : Fin (2 ^ 64)) = some [2, 1, 0, 0, 0, 0, 0, 0] := by
  decide +kernel

/-- A slashing for two attestations, by two validators and by one, over the same data -/
def slashing (K : Consts) (data : (phase0.AttestationData K).Val)
    (signature : (Schema.bytes 96).Val) (two : 2 ≤ K.MAX_VALIDATORS_PER_COMMITTEE) :
    (phase0.AttesterSlashing K).Val :=
  ((⟨[1, 258], by simpa [Len.ok] using two⟩, data, signature, ()),
    (⟨[3], by simp [Len.ok]; omega⟩, data, signature, ()), ())

/-- Its encoding: the offsets of the attestations and, in each of these, the offset of the indices -/
example : (do
      let data ← (phase0.AttestationData mainnetConsts).zero
      let signature ← (Schema.bytes 96).zero
      ser (phase0.AttesterSlashing mainnetConsts) (slashing mainnetConsts data signature (by decide))) =
    some ([8, 0, 0, 0, 252, 0, 0, 0] ++
      ([228, 0, 0, 0] ++ List.replicate 224 0 ++
        [1, 0, 0, 0, 0, 0, 0, 0, 2, 1, 0, 0, 0, 0, 0, 0]) ++
      ([228, 0, 0, 0] ++ List.replicate 224 0 ++ [3, 0, 0, 0, 0, 0, 0, 0])) := by
  decide +kernel

/-- It has an encoding, which is not of fixed size; that of the data is. -/
example : HasEncoding (phase0.AttesterSlashing mainnetConsts) = true ∧
    fixedSize (phase0.AttesterSlashing mainnetConsts) = none ∧
    fixedSize (phase0.AttestationData mainnetConsts) = some 128 ∧
    slotOf "attestation_2" (.of [
      ("attestation_1", phase0.IndexedAttestation mainnetConsts),
      ("attestation_2", phase0.IndexedAttestation mainnetConsts)]) = 4 := by
  decide +kernel

/-- Encodings with wrong offsets are not decoded. -/
example :
    let s := Schema.record (.of [("x", .byteList 4), ("y", .byteList 4)])
    (de s [8, 0, 0, 0, 9, 0, 0, 0, 7]).isSome ∧
    (de s [9, 0, 0, 0, 9, 0, 0, 0, 7]).isNone ∧
    (de s [8, 0, 0, 0, 10, 0, 0, 0, 7]).isNone ∧
    (de s [8, 0, 0, 0, 7, 0, 0, 0, 7]).isNone := by
  decide +kernel

/-- Other writings of the values of basic types are not decoded either. -/
example :
    (de .bool [1]).isSome ∧ (de .bool [2]).isNone ∧ (de .bool [1, 0]).isNone ∧
    (de (.bitlist 4) [0b10110]).isSome ∧ (de (.bitlist 4) [0b110, 0]).isNone ∧
    (de (.bitvector 4) [0b1001]).isSome ∧ (de (.bitvector 4) [0b11001]).isNone := by
  decide +kernel

end Verif.Props
