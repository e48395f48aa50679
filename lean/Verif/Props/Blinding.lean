import Verif.Proofs.Blinding
import Verif.Props.Ssz

/-! # C107: blinded blocks and headers stand for their blocks -/

namespace Verif.Props

open Json Ssz Spec

variable {H : Hash} {K : Consts}

/-- Structs whose fields have the same roots have the same root. -/
theorem roots_payload {fs gs : Fields} {v : fs.Val} {w : gs.Val}
    (h : roots H fs v = roots H gs w) : root H (.record fs) v = root H (.record gs) w := by
  have h4 : Fields.count fs = Fields.count gs := by
    rw [← roots_length fs v (H := H), ← roots_length gs w (H := H), h]
  simp only [root, h, h4]

/-- **C107** The header of a payload has its fields in their order, but the roots of the lists in the
place of the lists. -/
theorem C107_header_fields (T : BlindTypes) (hT : T ∈ blindTypes H K) (p : T.payload.Val) :
    members T.header (T.headerOf p) = (members T.payload p).map (headerField H) := by
  simp only [blindTypes, List.mem_cons, List.not_mem_nil, or_false] at hT
  rcases hT with rfl | rfl | rfl <;> rfl

/-- **C107** The same in electra. -/
theorem C107_header_fields_electra (p : (electra.ExecutionPayload K).Val) :
    members (electra.ExecutionPayloadHeader K) (electra.payloadHeader H K p) =
      (members (electra.ExecutionPayload K) p).map (headerField H) := rfl

/-- **C107** A payload has the root of its header, in every fork with blinded blocks. The hash gives
nodes of 32 bytes, as SHA-256 does. -/
theorem C107_header (hH : ∀ a b, (H a b).length = 32) (T : BlindTypes) (hT : T ∈ blindTypes H K)
    (p : T.payload.Val) : root H T.header (T.headerOf p) = root H T.payload p := by
  simp only [blindTypes, List.mem_cons, List.not_mem_nil, or_false] at hT
  rcases hT with rfl | rfl | rfl
  · obtain ⟨p1, p2, p3, p4, p5, p6, p7, p8, p9, p10, p11, p12, p13, x, ⟨⟩⟩ := p
    refine roots_payload ?_
    simp only [bellatrix.payloadHeader, Fields.of, roots, asRoot_root H (list_root_length hH _)]
  · obtain ⟨p1, p2, p3, p4, p5, p6, p7, p8, p9, p10, p11, p12, p13, x, y, ⟨⟩⟩ := p
    refine roots_payload ?_
    simp only [capella.payloadHeader, Fields.of, roots, asRoot_root H (list_root_length hH _)]
  · obtain ⟨p1, p2, p3, p4, p5, p6, p7, p8, p9, p10, p11, p12, p13, x, y, p16, p17, ⟨⟩⟩ := p
    refine roots_payload ?_
    simp only [deneb.payloadHeader, Fields.of, roots, asRoot_root H (list_root_length hH _)]

/-- **C107** The same in electra, which has headers but no blinded blocks. -/
theorem C107_header_electra (hH : ∀ a b, (H a b).length = 32) (p : (electra.ExecutionPayload K).Val) :
    root H (electra.ExecutionPayloadHeader K) (electra.payloadHeader H K p) =
      root H (electra.ExecutionPayload K) p := by
  obtain ⟨p1, p2, p3, p4, p5, p6, p7, p8, p9, p10, p11, p12, p13, x, y, p16, p17, z, u, ⟨⟩⟩ := p
  refine roots_payload ?_
  simp only [electra.payloadHeader, Fields.of, roots, asRoot_root H (list_root_length hH _)]

/-- **C107** A blinded block has the root of the block it stands for. -/
theorem C107_blinded (hH : ∀ a b, (H a b).length = 32) (T : BlindTypes) (hT : T ∈ blindTypes H K)
    (w : T.blindedBlock.Val) (v : T.block.Val) (h : StandsFor T w v) :
    root H T.blindedBlock w = root H T.block v := by
  obtain ⟨body, blinded, payload, h1, h2⟩ := h
  exact (swaps_root h1 (swaps_root h2 (C107_header hH T hT payload).symm)).symm

/-- **C107** So who signs the blinded block signs the block: the two have one signing root under every
domain. -/
theorem C107_signed (hH : ∀ a b, (H a b).length = 32) (T : BlindTypes) (hT : T ∈ blindTypes H K)
    (w : T.blindedBlock.Val) (v : T.block.Val) (h : StandsFor T w v) (domain : Node) :
    Ssz.compute_signing_root H T.blindedBlock w domain =
      Ssz.compute_signing_root H T.block v domain := by
  unfold Ssz.compute_signing_root
  rw [C107_blinded hH T hT w v h]

/-- **C107** Every block has a blinded block that stands for it. -/
theorem C107_exists (T : BlindTypes) (hT : T ∈ blindTypes H K) (v : T.block.Val) :
    ∃ w, StandsFor T w v := by
  simp only [blindTypes, List.mem_cons, List.not_mem_nil, or_false] at hT
  rcases hT with rfl | rfl | rfl
  · obtain ⟨v1, v2, v3, v4, ⟨b1, b2, b3, b4, b5, b6, b7, b8, b9, p, ⟨⟩⟩, ⟨⟩⟩ := v
    exact ⟨(v1, v2, v3, v4, (b1, b2, b3, b4, b5, b6, b7, b8, b9, bellatrix.payloadHeader H K p, ()), ()),
      (b1, b2, b3, b4, b5, b6, b7, b8, b9, p, ()), _, p,
      ⟨[("slot", ⟨_, v1⟩), ("proposer_index", ⟨_, v2⟩), ("parent_root", ⟨_, v3⟩),
        ("state_root", ⟨_, v4⟩)], [], rfl, rfl⟩,
      ⟨[("randao_reveal", ⟨_, b1⟩), ("eth1_data", ⟨_, b2⟩), ("graffiti", ⟨_, b3⟩),
        ("proposer_slashings", ⟨_, b4⟩), ("attester_slashings", ⟨_, b5⟩), ("attestations", ⟨_, b6⟩),
        ("deposits", ⟨_, b7⟩), ("voluntary_exits", ⟨_, b8⟩), ("sync_aggregate", ⟨_, b9⟩)], [],
        rfl, rfl⟩⟩
  · obtain ⟨v1, v2, v3, v4, ⟨b1, b2, b3, b4, b5, b6, b7, b8, b9, p, b11, ⟨⟩⟩, ⟨⟩⟩ := v
    exact ⟨(v1, v2, v3, v4, (b1, b2, b3, b4, b5, b6, b7, b8, b9, capella.payloadHeader H K p, b11, ()), ()),
      (b1, b2, b3, b4, b5, b6, b7, b8, b9, p, b11, ()), _, p,
      ⟨[("slot", ⟨_, v1⟩), ("proposer_index", ⟨_, v2⟩), ("parent_root", ⟨_, v3⟩),
        ("state_root", ⟨_, v4⟩)], [], rfl, rfl⟩,
      ⟨[("randao_reveal", ⟨_, b1⟩), ("eth1_data", ⟨_, b2⟩), ("graffiti", ⟨_, b3⟩),
        ("proposer_slashings", ⟨_, b4⟩), ("attester_slashings", ⟨_, b5⟩), ("attestations", ⟨_, b6⟩),
        ("deposits", ⟨_, b7⟩), ("voluntary_exits", ⟨_, b8⟩), ("sync_aggregate", ⟨_, b9⟩)],
        [("bls_to_execution_changes", ⟨_, b11⟩)], rfl, rfl⟩⟩
  · obtain ⟨v1, v2, v3, v4, ⟨b1, b2, b3, b4, b5, b6, b7, b8, b9, p, b11, b12, ⟨⟩⟩, ⟨⟩⟩ := v
    exact ⟨(v1, v2, v3, v4, (b1, b2, b3, b4, b5, b6, b7, b8, b9, deneb.payloadHeader H K p, b11, b12, ()),
        ()),
      (b1, b2, b3, b4, b5, b6, b7, b8, b9, p, b11, b12, ()), _, p,
      ⟨[("slot", ⟨_, v1⟩), ("proposer_index", ⟨_, v2⟩), ("parent_root", ⟨_, v3⟩),
        ("state_root", ⟨_, v4⟩)], [], rfl, rfl⟩,
      ⟨[("randao_reveal", ⟨_, b1⟩), ("eth1_data", ⟨_, b2⟩), ("graffiti", ⟨_, b3⟩),
        ("proposer_slashings", ⟨_, b4⟩), ("attester_slashings", ⟨_, b5⟩), ("attestations", ⟨_, b6⟩),
        ("deposits", ⟨_, b7⟩), ("voluntary_exits", ⟨_, b8⟩), ("sync_aggregate", ⟨_, b9⟩)],
        [("bls_to_execution_changes", ⟨_, b11⟩), ("blob_kzg_commitments", ⟨_, b12⟩)], rfl, rfl⟩⟩

/-- **C107** A blinded block leaves no choice of the block: two blocks for which one blinded block
stands are equal, unless the hash collides on the way to their roots. -/
theorem C107_one_block (hH : ∀ a b, (H a b).length = 32) (T : BlindTypes) (hT : T ∈ blindTypes H K)
    (hs : Sszable T.block = true) (w : T.blindedBlock.Val) (v v' : T.block.Val)
    (h : StandsFor T w v) (h' : StandsFor T w v') :
    v = v' ∨ Collision H (Hashes H T.block v) (Hashes H T.block v') :=
  or_iff_not_imp_right.2 (root_inj T.block hs v v'
    ((C107_blinded hH T hT w v h).symm.trans (C107_blinded hH T hT w v' h')))

/-- **C107** And only the blinded block that stands for it has the root of a block: another one with
that root gives a collision. -/
theorem C107_faithful (hH : ∀ a b, (H a b).length = 32) (T : BlindTypes) (hT : T ∈ blindTypes H K)
    (hs : Sszable T.blindedBlock = true) (w : T.blindedBlock.Val) (v : T.block.Val)
    (h : root H T.blindedBlock w = root H T.block v) :
    StandsFor T w v ∨ ∃ w', StandsFor T w' v ∧
      Collision H (Hashes H T.blindedBlock w) (Hashes H T.blindedBlock w') := by
  obtain ⟨w', hw⟩ := C107_exists T hT v
  by_cases hc : Collision H (Hashes H T.blindedBlock w) (Hashes H T.blindedBlock w')
  · exact .inr ⟨w', hw, hc⟩
  · refine .inl ?_
    rw [root_inj T.blindedBlock hs w w' (h.trans (C107_blinded hH T hT w' v hw).symm) hc]
    exact hw

/-! ## Headers of blocks -/

/-- **C107** The header of a block has the root of the block, in every fork, and whatever is signed of
one is signed of the other. -/
theorem C107_block_header (hH : ∀ a b, (H a b).length = 32) (p : Schema × Schema)
    (hp : p ∈ blockTypes K) (w : (phase0.BeaconBlockHeader K).Val) (v : p.2.Val)
    (h : HeaderOf H K p.1 p.2 w v) :
    root H (phase0.BeaconBlockHeader K) w = root H p.2 v ∧
      ∀ domain, Ssz.compute_signing_root H (phase0.BeaconBlockHeader K) w domain =
        Ssz.compute_signing_root H p.2 v domain := by
  obtain ⟨b, h⟩ := h
  have hl : (root H p.1 b).length = 32 := by
    simp only [blockTypes, List.mem_cons, List.not_mem_nil, or_false] at hp
    rcases hp with rfl | rfl | rfl | rfl | rfl | rfl
    all_goals exact body_root_length hH (by simp [Fields.of, Fields.count]) b
  have hr := (swaps_root h (asRoot_root H hl).symm).symm
  exact ⟨hr, fun _ => by unfold Ssz.compute_signing_root; rw [hr]⟩

/-- **C107** Every block has a header, which no other block has unless the hash collides. -/
theorem C107_block_header_exists (hH : ∀ a b, (H a b).length = 32) (p : Schema × Schema)
    (hp : p ∈ blockTypes K) (hs : Sszable p.2 = true) (v : p.2.Val) :
    ∃ w, HeaderOf H K p.1 p.2 w v ∧ ∀ v', HeaderOf H K p.1 p.2 w v' →
      v = v' ∨ Collision H (Hashes H p.2 v) (Hashes H p.2 v') := by
  have he : ∃ w, HeaderOf H K p.1 p.2 w v := by
    simp only [blockTypes, List.mem_cons, List.not_mem_nil, or_false] at hp
    rcases hp with rfl | rfl | rfl | rfl | rfl | rfl
    all_goals
      obtain ⟨v1, v2, v3, v4, b, ⟨⟩⟩ := v
      exact ⟨(v1, v2, v3, v4, asRoot (root H _ b), ()), b, [("slot", ⟨_, v1⟩),
        ("proposer_index", ⟨_, v2⟩), ("parent_root", ⟨_, v3⟩), ("state_root", ⟨_, v4⟩)], [], rfl, rfl⟩
  obtain ⟨w, hw⟩ := he
  exact ⟨w, hw, fun v' hv' => or_iff_not_imp_right.2 (root_inj p.2 hs v v'
    ((C107_block_header hH p hp w v hw).1.symm.trans (C107_block_header hH p hp w v' hv').1))⟩

/-! ## Examples -/

/-- A hash that mixes two nodes byte by byte -/
def mixHash : Hash := fun a b => pad (List.zipWith (fun x y => x * 3 + y * 5 + 1) a b)

theorem mixHash_length (a b : Node) : (mixHash a b).length = 32 := pad_length _

/-- The types of deneb with the preset `minimal` -/
def blindDeneb : BlindTypes :=
  ⟨deneb.ExecutionPayload minimalConsts, deneb.ExecutionPayloadHeader minimalConsts,
    deneb.BeaconBlockBody minimalConsts, deneb.BlindedBeaconBlockBody minimalConsts,
    deneb.BeaconBlock minimalConsts, deneb.BlindedBeaconBlock minimalConsts,
    deneb.payloadHeader mixHash minimalConsts⟩

theorem blindDeneb_mem : blindDeneb ∈ blindTypes mixHash minimalConsts := by
  simp [blindDeneb, blindTypes]

/-- A payload with one transaction, of these bytes -/
def paying (tx : List UInt8) (h : tx.length ≤ 1073741824) : blindDeneb.payload.Val :=
  let v := (deneb.ExecutionPayload minimalConsts).zero.get (by decide +kernel)
  (v.1, v.2.1, v.2.2.1, v.2.2.2.1, v.2.2.2.2.1, v.2.2.2.2.2.1, v.2.2.2.2.2.2.1, v.2.2.2.2.2.2.2.1,
    v.2.2.2.2.2.2.2.2.1, v.2.2.2.2.2.2.2.2.2.1, v.2.2.2.2.2.2.2.2.2.2.1,
    v.2.2.2.2.2.2.2.2.2.2.2.1, v.2.2.2.2.2.2.2.2.2.2.2.2.1, ⟨[⟨tx, h⟩], by rfl⟩,
    v.2.2.2.2.2.2.2.2.2.2.2.2.2.2)

/-- Its block -/
def payingBlock107 (tx : List UInt8) (h : tx.length ≤ 1073741824) : blindDeneb.block.Val :=
  let v := (deneb.BeaconBlock minimalConsts).zero.get (by decide +kernel)
  let b := v.2.2.2.2.1
  (v.1, v.2.1, v.2.2.1, v.2.2.2.1, (b.1, b.2.1, b.2.2.1, b.2.2.2.1, b.2.2.2.2.1, b.2.2.2.2.2.1,
    b.2.2.2.2.2.2.1, b.2.2.2.2.2.2.2.1, b.2.2.2.2.2.2.2.2.1, paying tx h,
    b.2.2.2.2.2.2.2.2.2.2), ())

/-- Payloads with different transactions have different headers, and each has the root of its header. -/
example : root mixHash _ (blindDeneb.headerOf (paying [1, 2] (by decide))) ≠
      root mixHash _ (blindDeneb.headerOf (paying [1, 3] (by decide))) ∧
    root mixHash _ (blindDeneb.headerOf (paying [1, 2] (by decide))) =
      root mixHash _ (paying [1, 2] (by decide)) :=
  ⟨by decide +kernel, C107_header mixHash_length blindDeneb blindDeneb_mem _⟩

/-- One stands for each of these blocks, with its root. -/
example : ∃ w, StandsFor blindDeneb w (payingBlock107 [1, 2] (by decide)) ∧
    root mixHash _ w = root mixHash _ (payingBlock107 [1, 2] (by decide)) :=
  let ⟨w, h⟩ := C107_exists blindDeneb blindDeneb_mem (payingBlock107 [1, 2] (by decide))
  ⟨w, h, C107_blinded mixHash_length blindDeneb blindDeneb_mem w _ h⟩

/-- The condition on the types holds with both presets. -/
example : ∀ K ∈ [mainnetConsts, minimalConsts], (∀ T ∈ blindTypes mixHash K,
      Sszable T.block = true ∧ Sszable T.blindedBlock = true) ∧
    ∀ p ∈ blockTypes K, Sszable p.2 = true := by
  decide +kernel

end Verif.Props
