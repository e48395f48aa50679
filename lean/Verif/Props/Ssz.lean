import Verif.Proofs.SszBranch
import Verif.Proofs.Deposits
import Verif.Props.Json
import Verif.Props.Deposits
import Verif.Examples.Toy

/-! # Hash tree roots and branches -/

namespace Verif.Props

open Json Ssz Spec

/-! ## C76: a root determines its value -/

/-- Two values of a type with the same root are equal, or finding their roots shows two different pairs
of nodes with the same hash. -/
theorem C76_roots (H : Hash) (K : Consts) (p : String × Schema) (_ : p ∈ coreTypes K)
    (hs : Sszable p.2 = true) (v w : p.2.Val) (h : root H p.2 v = root H p.2 w) :
    v = w ∨ Collision H (Hashes H p.2 v) (Hashes H p.2 w) :=
  or_iff_not_imp_right.2 (root_inj p.2 hs v w h)

/-- The same for whatever is signed: the signing root determines the object and the domain. -/
theorem C76_signing_roots (H : Hash) (s : Schema) (hs : Sszable s = true) (v w : s.Val)
    (d e : Node) (h : Ssz.compute_signing_root H s v d = Ssz.compute_signing_root H s w e) :
    (v = w ∧ d = e) ∨
    Collision H (Either (· = (root H s v, d)) (Hashes H s v))
      (Either (· = (root H s w, e)) (Hashes H s w)) := by
  refine or_iff_not_imp_right.2 fun hc => ?_
  have he : (root H s v, d) = (root H s w, e) := by
    by_contra hne
    exact hc ⟨_, _, Or.inl rfl, Or.inl rfl, hne, h⟩
  rw [Prod.mk.injEq] at he
  exact ⟨root_inj s hs v w he.1 fun h => hc (h.mono (fun _ => Or.inr) fun _ => Or.inr), he.2⟩

/-- Objects of any two types signed for different domains have different signing roots, or their
signing roots are a collision. -/
theorem C76_signing_domains (H : Hash) (s t : Schema) (v : s.Val) (w : t.Val) (d e : Node)
    (hde : d ≠ e) (h : Ssz.compute_signing_root H s v d = Ssz.compute_signing_root H t w e) :
    Collision H (· = (root H s v, d)) (· = (root H t w, e)) :=
  ⟨_, _, rfl, rfl, fun he => hde (Prod.mk.injEq .. ▸ he).2, h⟩

/-- The constants of the minimal preset, `*/presets/minimal.rs` -/
def minimalConsts : Consts :=
  { mainnetConsts with
    SLOTS_PER_HISTORICAL_ROOT := 64
    ETH1_DATA_VOTES_BOUND := 32
    EPOCHS_PER_HISTORICAL_VECTOR := 64
    EPOCHS_PER_SLASHINGS_VECTOR := 64
    PENDING_ATTESTATIONS_BOUND := 1024
    SYNC_COMMITTEE_SIZE := 32
    SYNC_SUBCOMMITTEE_SIZE := 8
    MAX_WITHDRAWALS_PER_PAYLOAD := 4
    MAX_BLOB_COMMITMENTS_PER_BLOCK := 16
    KZG_COMMITMENT_INCLUSION_PROOF_DEPTH := 9
    MAX_VALIDATORS_PER_SLOT := 8192
    MAX_COMMITTEES_PER_SLOT := 4
    MAX_DEPOSIT_RECEIPTS_PER_PAYLOAD := 4
    MAX_WITHDRAWAL_REQUESTS_PER_PAYLOAD := 2
    PENDING_PARTIAL_WITHDRAWALS_LIMIT := 2 ^ 6
    PENDING_CONSOLIDATIONS_LIMIT := 2 ^ 6 }

/-- All the types of both presets but `BlobsBundle`, which has `Vec`s and no root, meet the condition
of `C76_roots`. -/
theorem C76_presets (K : Consts) (hK : K ∈ [mainnetConsts, minimalConsts]) :
    ∀ p ∈ coreTypes K, Sszable p.2 = (p.1 != "deneb::BlobsBundle") := by
  simp only [List.mem_cons, List.not_mem_nil, or_false] at hK
  rcases hK with rfl | rfl <;> decide +kernel

/-! ## C77: branches -/

/-- A branch that is accepted for a path, from the root of `x` to the root of `v`, says that `x` is the
part of `v` at the end of the path; or it shows a collision, or a pair of nodes that hashes to zeros. -/
theorem C77_sound (H : Hash) {s t : Schema} {path : List PathElement} {g : Nat}
    (hg : generalized_index s path = some g) (ht : typeAt path s = some t) (hs : Sszable t = true)
    (v : s.Val) (x : t.Val) {branch : List Node}
    (h : is_valid_merkle_branch H (root H t x) branch (Nat.log2 g) (get_subtree_index g)
      (root H s v) = true) :
    valueAt path s v = some ⟨t, x⟩ ∨
    Collision H (Either (BranchHashes H (get_subtree_index g) (root H t x) branch) (Hashes H t x))
      (Hashes H s v) ∨
    root H t x = zeroNode ∨
    HashesToZero H (BranchHashes H (get_subtree_index g) (root H t x) branch) :=
  member_sound hg ht hs v x h

/-- Every part of a value has a branch that is accepted. -/
theorem C77_complete (H : Hash) {s : Schema} {path : List PathElement} {g : Nat}
    (hg : generalized_index s path = some g) (v : s.Val) {x : (s : Schema) × s.Val}
    (hx : valueAt path s v = some x) : ∃ branch : List Node,
    is_valid_merkle_branch H (root H x.1 x.2) branch (Nat.log2 g) (get_subtree_index g)
      (root H s v) = true :=
  member_complete hg v hx

/-- The types of block bodies that have commitments -/
def bodiesWithBlobs (K : Consts) : List Schema :=
  [deneb.BeaconBlockBody K, deneb.BlindedBeaconBlockBody K, electra.BeaconBlockBody K]

/-- The path to a commitment -/
abbrev commitmentPath (i : Nat) : List PathElement := [.field "blob_kzg_commitments", .at i]

theorem commitment_index (K : Consts) (body : Schema) (hb : body ∈ bodiesWithBlobs K) (i : Nat) :
    generalized_index body (commitmentPath i) =
      (if i < K.MAX_BLOB_COMMITMENTS_PER_BLOCK then
        some (27 * 2 ^ (depth K.MAX_BLOB_COMMITMENTS_PER_BLOCK + 1) + i) else none) ∧
    (i < K.MAX_BLOB_COMMITMENTS_PER_BLOCK → typeAt (commitmentPath i) body = some (.bytes 48)) := by
  simp only [bodiesWithBlobs, List.mem_cons, List.not_mem_nil, or_false] at hb
  have h4 : depth 12 = 4 ∧ depth 13 = 4 := by decide
  rcases hb with rfl | rfl | rfl <;>
  · constructor
    · by_cases h : i < K.MAX_BLOB_COMMITMENTS_PER_BLOCK <;>
        simp [generalized_index, generalizedIndexFrom, step, deneb.BeaconBlockBody,
          deneb.BlindedBeaconBlockBody, electra.BeaconBlockBody, Fields.of, Ssz.Fields.position,
          Ssz.Fields.count, h4, h]
    · intro h
      simp [typeAt, step, deneb.BeaconBlockBody, deneb.BlindedBeaconBlockBody,
        electra.BeaconBlockBody, Fields.of, Ssz.Fields.position, Ssz.Fields.count, h]

theorem commitment_log {n i : Nat} (h : i < n) :
    Nat.log2 (27 * 2 ^ (depth n + 1) + i) = 5 + depth n ∧
    get_subtree_index (27 * 2 ^ (depth n + 1) + i) = 11 * 2 ^ (depth n + 1) + i := by
  have hd := le_depth n
  have hlog : Nat.log2 (27 * 2 ^ (depth n + 1) + i) = 5 + depth n := by
    rw [Nat.log2_eq_iff (by omega)]
    simp only [Nat.pow_add, Nat.pow_succ]
    omega
  refine ⟨hlog, ?_⟩
  unfold get_subtree_index
  rw [hlog, show 27 * 2 ^ (depth n + 1) + i = 2 ^ (5 + depth n) + (11 * 2 ^ (depth n + 1) + i) by
    simp only [Nat.pow_add, Nat.pow_succ]; omega, Nat.add_mod_left, Nat.mod_eq_of_lt]
  simp only [Nat.pow_add, Nat.pow_succ]
  omega

/-- The root of a commitment is a hash. -/
theorem commitment_root (H : Hash) (x : (Schema.bytes 48).Val) (h : root H (.bytes 48) x = zeroNode) :
    HashesToZero H (Hashes H (.bytes 48) x) :=
  ⟨_, Or.inl rfl, by rw [← h]; exact (merkleize_succ 0 _).symm⟩

/-- A sidecar whose inclusion proof is accepted has the commitment that the body of the block has at
its index; or it shows a collision, or a pair of nodes that hashes to zeros. The depth is the one that
the presets have, `C77_depths`. -/
theorem C77_sidecar (H : Hash) (K : Consts) (body : Schema) (hb : body ∈ bodiesWithBlobs K)
    (v : body.Val) (sidecar : Sidecar) (hr : sidecar.body_root = root H body v)
    (h : verify_blob_sidecar_inclusion_proof H (5 + depth K.MAX_BLOB_COMMITMENTS_PER_BLOCK) body
      sidecar = true) :
    valueAt (commitmentPath sidecar.index) body v = some ⟨.bytes 48, sidecar.kzg_commitment⟩ ∨
    let P := Either
      (BranchHashes H (11 * 2 ^ (depth K.MAX_BLOB_COMMITMENTS_PER_BLOCK + 1) + sidecar.index)
        (root H (.bytes 48) sidecar.kzg_commitment) sidecar.kzg_commitment_inclusion_proof)
      (Hashes H (.bytes 48) sidecar.kzg_commitment)
    Collision H P (Hashes H body v) ∨ HashesToZero H P := by
  obtain ⟨h1, h2⟩ := commitment_index K body hb sidecar.index
  unfold verify_blob_sidecar_inclusion_proof at h
  by_cases hi : sidecar.index < K.MAX_BLOB_COMMITMENTS_PER_BLOCK
  · rw [if_pos hi] at h1
    obtain ⟨h3, h4⟩ := commitment_log hi
    simp only [h1, hr] at h
    rw [← h3] at h
    have := C77_sound H h1 (h2 hi) rfl v sidecar.kzg_commitment h
    rw [h4] at this
    rcases this with h | h | h | ⟨p, hp, h⟩
    · exact Or.inl h
    · exact Or.inr (Or.inl h)
    · obtain ⟨p, hp, h⟩ := commitment_root H _ h
      exact Or.inr (Or.inr ⟨p, Or.inr hp, h⟩)
    · exact Or.inr (Or.inr ⟨p, Or.inl hp, h⟩)
  · rw [if_neg hi] at h1
    simp [h1] at h

/-- For every commitment of a body there is a proof with which its sidecar is accepted. -/
theorem C77_sidecar_complete (H : Hash) (K : Consts) (body : Schema) (hb : body ∈ bodiesWithBlobs K)
    (v : body.Val) (index : Nat) (hi : index < K.MAX_BLOB_COMMITMENTS_PER_BLOCK)
    (c : (Schema.bytes 48).Val) (hc : valueAt (commitmentPath index) body v = some ⟨.bytes 48, c⟩) :
    ∃ proof : List Node, proof.length = 5 + depth K.MAX_BLOB_COMMITMENTS_PER_BLOCK ∧
      verify_blob_sidecar_inclusion_proof H (5 + depth K.MAX_BLOB_COMMITMENTS_PER_BLOCK) body
        ⟨index, c, root H body v, proof⟩ = true := by
  obtain ⟨h1, _⟩ := commitment_index K body hb index
  rw [if_pos hi] at h1
  obtain ⟨proof, h⟩ := C77_complete H h1 v hc
  rw [(commitment_log hi).1] at h
  refine ⟨proof, ?_, ?_⟩
  · simp only [is_valid_merkle_branch, Bool.and_eq_true, beq_iff_eq] at h
    exact h.1
  · unfold verify_blob_sidecar_inclusion_proof
    simpa only [h1] using h

/-- An index beyond the limit is refused. -/
theorem C77_sidecar_index (H : Hash) (K : Consts) (body : Schema) (hb : body ∈ bodiesWithBlobs K)
    (d : Nat) (sidecar : Sidecar) (hi : K.MAX_BLOB_COMMITMENTS_PER_BLOCK ≤ sidecar.index) :
    verify_blob_sidecar_inclusion_proof H d body sidecar = false := by
  obtain ⟨h1, _⟩ := commitment_index K body hb sidecar.index
  rw [if_neg (by omega)] at h1
  simp [verify_blob_sidecar_inclusion_proof, h1]

/-- The depths in the presets are the depths of the trees. -/
theorem C77_depths (K : Consts) (hK : K ∈ [mainnetConsts, minimalConsts]) :
    K.KZG_COMMITMENT_INCLUSION_PROOF_DEPTH = 5 + depth K.MAX_BLOB_COMMITMENTS_PER_BLOCK := by
  simp only [List.mem_cons, List.not_mem_nil, or_false] at hK
  rcases hK with rfl | rfl <;> decide

/-- The indices in the modules for light clients are those of the states and bodies of altair to
deneb. -/
theorem C77_light_client (K : Consts) :
    (∀ s ∈ [altair.BeaconState K, bellatrix.BeaconState K, capella.BeaconState K,
        deneb.BeaconState K],
      generalized_index s [.field "finalized_checkpoint", .field "root"] =
        some FINALIZED_ROOT_INDEX ∧
      generalized_index s [.field "current_sync_committee"] = some CURRENT_SYNC_COMMITTEE_INDEX ∧
      generalized_index s [.field "next_sync_committee"] = some NEXT_SYNC_COMMITTEE_INDEX) ∧
    (∀ s ∈ [bellatrix.BeaconBlockBody K, capella.BeaconBlockBody K, deneb.BeaconBlockBody K,
        electra.BeaconBlockBody K],
      generalized_index s [.field "execution_payload"] = some EXECUTION_PAYLOAD_INDEX) := by
  have h : depth 2 = 1 ∧ depth 24 = 5 ∧ depth 25 = 5 ∧ depth 28 = 5 ∧ depth 10 = 4 ∧ depth 11 = 4 ∧
    depth 12 = 4 ∧ depth 13 = 4 := by decide
  constructor <;> intro s hs <;> simp only [List.mem_cons, List.not_mem_nil, or_false] at hs <;>
  rcases hs with rfl | rfl | rfl | rfl <;>
  simp [generalized_index, generalizedIndexFrom, step, Fields.of, Ssz.Fields.position,
    Ssz.Fields.count, h, altair.BeaconState, bellatrix.BeaconState, capella.BeaconState,
    deneb.BeaconState, bellatrix.BeaconBlockBody, capella.BeaconBlockBody, deneb.BeaconBlockBody,
    electra.BeaconBlockBody, phase0.Checkpoint, FINALIZED_ROOT_INDEX, CURRENT_SYNC_COMMITTEE_INDEX,
    NEXT_SYNC_COMMITTEE_INDEX, EXECUTION_PAYLOAD_INDEX]

/-- The state of electra has more than 32 fields, and other indices. -/
theorem C77_light_client_electra (K : Consts) :
    generalized_index (electra.BeaconState K) [.field "finalized_checkpoint", .field "root"] =
      some 169 ∧
    generalized_index (electra.BeaconState K) [.field "current_sync_committee"] = some 86 ∧
    generalized_index (electra.BeaconState K) [.field "next_sync_committee"] = some 87 := by
  have h : depth 2 = 1 ∧ depth 37 = 6 := by decide
  simp [generalized_index, generalizedIndexFrom, step, Fields.of, Ssz.Fields.position,
    Ssz.Fields.count, h, electra.BeaconState, phase0.Checkpoint]

/-! ### Deposits -/

/-- The deposits in the tree of the deposit contract, as a value of `List<DepositData, 2^32>` -/
abbrev depositTree (K : Consts) : Schema := .seq (.atMost (2 ^ 32)) (phase0.DepositData K)

/-- A deposit as a value of its shape -/
def depositVal (K : Consts) (d : DepositData) (h : d.amount < 2 ^ 64) : (phase0.DepositData K).Val :=
  (⟨d.public_key.toList, by simp⟩, ⟨d.withdrawal_credentials.toList, by simp⟩, ⟨d.amount, h⟩,
    ⟨d.signature.toList, by simp⟩, ())

/-- The environment hashes deposits and checks branches with `H`. -/
structure MerkleEnv (E : Env) (H : Hash) (K : Consts) : Prop where
  branch : ∀ leaf branch depth index root,
    E.is_valid_merkle_branch leaf branch depth index root =
      is_valid_merkle_branch H leaf.toList (branch.map Vector.toList) depth index root.toList
  deposit : ∀ d (h : d.amount < 2 ^ 64),
    (E.deposit_data_root d).toList = root H (phase0.DepositData K) (depositVal K d h)

/-- A deposit that is accepted is the one at the state's deposit index in the tree whose root the state
holds; or it shows a collision, or a pair of nodes that hashes to zeros. -/
theorem C77_deposit {E : Env} {H : Hash} {K : Consts} (hE : MerkleEnv E H K) {f : Fork}
    {d : Deposit} (hd : d.data.amount < 2 ^ 64) {s s' : State}
    (tree : (depositTree K).Val) (hr : s.eth1_data.deposit_root.toList = root H (depositTree K) tree)
    (hi : s.eth1_deposit_index < 2 ^ 32) (h : process_deposit E f d s = .ok () s') :
    tree.val[s.eth1_deposit_index]? = some (depositVal K d.data hd) ∨
    let P := Either
      (BranchHashes H s.eth1_deposit_index (E.deposit_data_root d.data).toList
        (d.proof.map Vector.toList))
      (Hashes H (phase0.DepositData K) (depositVal K d.data hd))
    Collision H P (Hashes H (depositTree K) tree) ∨ HashesToZero H P := by
  obtain ⟨hp, _⟩ := process_deposit_ok_iff.1 h
  unfold DepositProven at hp
  rw [hE.branch, hr, hE.deposit _ hd] at hp
  have hd32 : depth (2 ^ 32) = 32 := by decide
  have hg : generalized_index (depositTree K) [.at s.eth1_deposit_index] =
      some (2 ^ 33 + s.eth1_deposit_index) := by
    simp only [generalized_index, generalizedIndexFrom, step, if_pos hi, hd32, Nat.one_mul]
  have hlog : Nat.log2 (2 ^ 33 + s.eth1_deposit_index) = 33 := by
    rw [Nat.log2_eq_iff (by omega)]; omega
  have hsub : get_subtree_index (2 ^ 33 + s.eth1_deposit_index) = s.eth1_deposit_index := by
    unfold get_subtree_index
    rw [hlog, Nat.add_mod_left, Nat.mod_eq_of_lt (by omega)]
  have := C77_sound H hg (t := phase0.DepositData K) (by simp only [typeAt, step, if_pos hi, Option.bind_some])
    rfl tree
    (depositVal K d.data hd) (by rw [hlog, hsub]; exact hp)
  rw [hsub, ← hE.deposit _ hd] at this
  rcases this with h | h | h | ⟨p, hp, h⟩
  · left
    simp only [valueAt] at h
    cases hx : tree.val[s.eth1_deposit_index]? with
    | none => simp [hx] at h
    | some x => simpa [hx] using h
  · exact Or.inr (Or.inl h)
  · rw [hE.deposit _ hd] at h
    refine Or.inr (Or.inr ⟨_, Or.inr (Or.inl (Or.inl rfl)), ?_⟩)
    rw [← h]
    exact (merkleize_succ 1 _).symm
  · exact Or.inr (Or.inr ⟨p, Or.inl hp, h⟩)

/-! ## Concrete cases -/

/-- A hash without collisions -/
def freeHash : Hash := fun a b => List.replicate a.length 1 ++ 0 :: (a ++ b)

theorem freeHash_inj {a b c d : Node} (h : freeHash a b = freeHash c d) : a = c ∧ b = d := by
  have hl : a.length = c.length := by
    have key : ∀ (m n : Nat) (xs ys : List UInt8), List.replicate m 1 ++ (0 : UInt8) :: xs =
        List.replicate n 1 ++ 0 :: ys → m = n := by
      intro m
      induction m with
      | zero => intro n xs ys h; cases n with
        | zero => rfl
        | succ n => simp [List.replicate_succ] at h
      | succ m ih => intro n xs ys h; cases n with
        | zero => simp [List.replicate_succ] at h
        | succ n =>
          simp only [List.replicate_succ, List.cons_append, List.cons.injEq, true_and] at h
          rw [ih n xs ys h]
    exact key _ _ _ _ h
  unfold freeHash at h
  rw [hl, List.append_cancel_left_eq, List.cons.injEq] at h
  exact List.append_inj h.2 hl

/-- With such a hash every type has different roots for different values. -/
example (s : Schema) (hs : Sszable s = true) : Function.Injective (root freeHash s) :=
  fun v w h => root_inj s hs v w h fun ⟨_, _, _, _, hne, he⟩ =>
    hne (Prod.ext (freeHash_inj he).1 (freeHash_inj he).2)

/-- A hash to 32 bytes -/
def toyHash : Hash := fun a b =>
  pad ((a ++ b).foldl (fun (acc : List UInt8) x => (acc.getLastD 7 * 5 + x + 3) :: acc) [])

theorem pad_length (xs : List UInt8) : (pad xs).length = 32 := by
  simp [pad, zeroNode]

/-- The checkpoint of epoch 5 and the one of epoch 6 have different roots. -/
example : root toyHash (phase0.Checkpoint mainnetConsts) (5, ⟨List.replicate 32 1, rfl⟩, ()) ≠
    root toyHash (phase0.Checkpoint mainnetConsts) (6, ⟨List.replicate 32 1, rfl⟩, ()) := by
  decide +kernel

/-- A commitment with that byte -/
def commitmentOf (b : UInt8) : (Schema.bytes 48).Val := ⟨List.replicate 48 b, by simp⟩

/-- The block body without contents, but with these commitments -/
def bodyWith (cs : List (Schema.bytes 48).Val) (h : cs.length ≤ 16) :
    (deneb.BeaconBlockBody minimalConsts).Val :=
  let v := (deneb.BeaconBlockBody minimalConsts).zero.get (by decide +kernel)
  (v.1, v.2.1, v.2.2.1, v.2.2.2.1, v.2.2.2.2.1, v.2.2.2.2.2.1, v.2.2.2.2.2.2.1, v.2.2.2.2.2.2.2.1,
    v.2.2.2.2.2.2.2.2.1, v.2.2.2.2.2.2.2.2.2.1, v.2.2.2.2.2.2.2.2.2.2.1,
    ⟨cs, decide_eq_true h⟩, ())

/-- The second of three commitments has a proof of 9 nodes that is accepted. -/
example : ∃ proof : List Node, proof.length = 9 ∧
    verify_blob_sidecar_inclusion_proof toyHash 9 (deneb.BeaconBlockBody minimalConsts)
      ⟨1, commitmentOf 4, root toyHash _ (bodyWith [commitmentOf 3, commitmentOf 4, commitmentOf 5]
        (by decide)), proof⟩ = true :=
  C77_sidecar_complete toyHash minimalConsts _ (by simp [bodiesWithBlobs]) _ 1 (by decide) _ rfl

/-- An environment with that hash -/
def merkleEnv : Env :=
  { Toy.env with
    is_valid_merkle_branch := fun leaf branch depth index root =>
      is_valid_merkle_branch toyHash leaf.toList (branch.map Vector.toList) depth index root.toList
    deposit_data_root := fun d =>
      if h : d.amount < 2 ^ 64 then
        ⟨(root toyHash (phase0.DepositData mainnetConsts) (depositVal _ d h)).toArray, by
          simp only [List.size_toArray]; exact pad_length _⟩
      else zeroBytes 32 }

theorem merkleEnv_ok : MerkleEnv merkleEnv toyHash mainnetConsts where
  branch _ _ _ _ _ := rfl
  deposit d h := by
    unfold merkleEnv
    simp only [dif_pos h]
    simp

/-- The tree with these two deposits -/
def twoDepositTree : (depositTree mainnetConsts).Val :=
  ⟨[depositVal _ (depositOf 9 Toy.goodSig).data (by decide),
    depositVal _ (depositOf 10 Toy.goodSig).data (by decide)], by decide⟩

/-- The second deposit, with its branch -/
def secondDeposit : Deposit where
  data := (depositOf 10 Toy.goodSig).data
  proof :=
    merkleEnv.deposit_data_root (depositOf 9 Toy.goodSig).data ::
      ((List.range 31).map fun i => ⟨(zeroRoot toyHash (i + 1)).toArray.extract 0 32 ++
        Array.replicate (32 - ((zeroRoot toyHash (i + 1)).toArray.extract 0 32).size) 0, by
          simp⟩) ++
      [⟨(leBytes 32 2).toArray, by simp [leBytes_length]⟩]

/-- A state that expects the second deposit -/
def secondState : State :=
  let s := Toy.state 8 20
  { s with
    eth1_deposit_index := 1
    eth1_data := { s.eth1_data with
      deposit_root := ⟨(root toyHash _ twoDepositTree).toArray, by
        simp only [List.size_toArray]; exact pad_length _⟩ } }

/-- The second deposit is accepted, the first one in its place is not. -/
example : Toy.succeeds (process_deposit merkleEnv .Capella secondDeposit) secondState = true ∧
    Toy.succeeds (process_deposit merkleEnv .Capella
      { secondDeposit with data := (depositOf 9 Toy.goodSig).data }) secondState = false := by
  decide +kernel

end Verif.Props
