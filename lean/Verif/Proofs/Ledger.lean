import Verif.Spec.Ledger
import Verif.Proofs.Whole

/-! # The books of a block -/

namespace Verif

open Spec

/-! ## Books of states -/

section Books
variable {E : Env} {f : Fork} {s t u : State}

/-- The key and the kind of credentials of each validator. -/
def holders (s : State) : List (PublicKey × UInt8) :=
  s.validators.map fun v => (v.public_key, v.withdrawal_credentials[0])

theorem bookOf_eq : bookOf s =
    ⟨List.zipWith (fun h b => (⟨h.1, h.2, b⟩ : Account)) (holders s) s.balances,
      s.pending_balance_deposits⟩ := by
  unfold bookOf holders
  rw [List.zipWith_map_left]

theorem book_same (h1 : holders u = holders t) (h2 : u.balances = t.balances)
    (h3 : u.pending_balance_deposits = t.pending_balance_deposits) : bookOf u = bookOf t := by
  rw [bookOf_eq, bookOf_eq, h1, h2, h3]

theorem book_mod {W : List Field} {m : M Unit} (h : Modifies W m)
    (hW : ∀ x ∈ [Field.validators, .balances, .pending_balance_deposits], x ∉ W)
    (hm : m t = .ok () u) : bookOf u = bookOf t := by
  have g : ChangesOnly W t u := h.toOk.ok hm
  refine book_same ?_ (g .balances (hW _ (by decide)))
    (g .pending_balance_deposits (hW _ (by decide)))
  unfold holders
  rw [show u.validators = t.validators from g .validators (hW _ (by decide))]

theorem zipWith_modify {α β γ : Type} {g : α → β → γ} {h : β → β} {k : γ → γ}
    (hk : ∀ x y, k (g x y) = g x (h y)) {l : List α} {m : List β} {i : Nat} :
    List.zipWith g l (m.modify i h) = (List.zipWith g l m).modify i k := by
  apply List.ext_getElem?
  intro n
  simp only [List.getElem?_zipWith, List.getElem?_modify]
  cases l[n]? <;> cases m[n]? <;> simp
  by_cases hn : i = n <;> simp [hn, hk]

theorem book_balances {i : Nat} {g : Nat → Nat} (h1 : holders u = holders t)
    (h2 : u.balances = t.balances.modify i g)
    (h3 : u.pending_balance_deposits = t.pending_balance_deposits) :
    bookOf u = { bookOf t with
      accounts := (bookOf t).accounts.modify i fun a => { a with balance := g a.balance } } := by
  rw [bookOf_eq, bookOf_eq, h1, h2, h3]
  congr 1
  exact zipWith_modify (g := fun (h : PublicKey × UInt8) b => (⟨h.1, h.2, b⟩ : Account))
    (k := fun a => { a with balance := g a.balance }) (fun _ _ => rfl)

theorem set_modify {l : List Nat} {i b : Nat} (h : l[i]? = some b) (g : Nat → Nat) :
    l.set i (g b) = l.modify i g := by
  apply List.ext_getElem?
  intro n
  rw [List.getElem?_set, List.getElem?_modify]
  by_cases hn : i = n
  · subst hn
    rw [if_pos rfl, if_pos (List.getElem?_eq_some_iff.1 h).1, h]; simp
  · simp [hn]

theorem book_credit {i x b : Nat} (h1 : holders u = holders t) (hb : t.balances[i]? = some b)
    (h2 : u.balances = t.balances.set i (b + x))
    (h3 : u.pending_balance_deposits = t.pending_balance_deposits) :
    bookOf u = (bookOf t).credit i x :=
  book_balances h1 (h2.trans (set_modify hb (· + x))) h3

theorem holders_set {l : List Validator} {i : Nat} {v w : Validator} (hv : l[i]? = some v)
    (h1 : w.public_key = v.public_key)
    (h2 : w.withdrawal_credentials[0] = v.withdrawal_credentials[0]) :
    (l.set i w).map (fun v => (v.public_key, v.withdrawal_credentials[0])) =
      l.map fun v => (v.public_key, v.withdrawal_credentials[0]) := by
  apply List.ext_getElem?
  intro n
  rw [List.getElem?_map, List.getElem?_map, List.getElem?_set]
  by_cases hn : i = n
  · subst hn
    rw [if_pos rfl, if_pos (List.getElem?_eq_some_iff.1 hv).1, hv, Option.map_some, Option.map_some,
      h1, h2]
  · rw [if_neg hn]

theorem book_accounts {i : Nat} {v : Validator} {b : Nat} (hv : s.validators[i]? = some v)
    (hb : s.balances[i]? = some b) :
    (bookOf s).accounts[i]? = some ⟨v.public_key, v.withdrawal_credentials[0], b⟩ := by
  unfold bookOf
  rw [List.getElem?_zipWith, hv, hb]

theorem book_length (h : s.balances.length = s.validators.length) :
    (bookOf s).accounts.length = s.validators.length := by
  unfold bookOf
  rw [List.length_zipWith, h, Nat.min_self]

/-! ## Withdrawals -/

theorem decrease_book {i x : Nat} (h : decrease_balance i x t = .ok () u) :
    bookOf u = (bookOf t).debit i x := by
  simp only [decrease_balance, run] at h
  obtain ⟨b, hb, b', y, h1, rfl⟩ := h
  have hb' : b' = b - x ∧ t = y := by
    rcases h1 with ⟨h1, h2, h3⟩ | ⟨h1, h2, h3⟩
    · exact ⟨by omega, h3⟩
    · exact ⟨by omega, h3⟩
  obtain ⟨rfl, rfl⟩ := hb'
  exact book_balances (t := t) (u := { t with balances := t.balances.set i (b - x) }) rfl
    (set_modify hb (· - x)) rfl

theorem withdrawals_book {p : ExecutionPayload} (h : process_withdrawals E f p t = .ok () u) :
    bookOf u =
      p.withdrawals.foldl (fun B w => B.debit w.validator_index w.amount) (bookOf t) := by
  simp only [process_withdrawals, run] at h
  obtain ⟨r, -, h1, t1, h2, h⟩ := h
  have h1 : p.withdrawals = r.1 := by simpa using h1
  rw [h1]
  have key : ∀ {l : List Withdrawal} {x y : State},
      forEach l (fun w => decrease_balance w.validator_index w.amount) x = .ok () y →
      bookOf y = l.foldl (fun B w => B.debit w.validator_index w.amount) (bookOf x) := by
    intro l
    induction l with
    | nil => intro x y h; rw [forEach_nil] at h; cases h; rfl
    | cons w l ih =>
      intro x y h
      rw [forEach_cons] at h
      obtain ⟨z, h1, h2⟩ := h
      rw [ih h2, decrease_book h1]; rfl
  rw [← key h2]
  obtain ⟨_, -, _, -, rfl⟩ := h
  rfl

/-! ## Slashings -/

theorem share_le {r share : Nat} (h : slashing_proposer_reward E f r = .ok share) : share ≤ r := by
  cases f
  case Phase0 =>
    simp only [slashing_proposer_reward, run] at h
    obtain ⟨rfl, -⟩ := h
    exact Nat.div_le_self _ _
  all_goals
    simp only [slashing_proposer_reward, run, PROPOSER_WEIGHT, WEIGHT_DENOMINATOR] at h
    obtain ⟨x, ⟨rfl, -⟩, rfl, -⟩ := h
    simp

theorem modify_twice {l : List Nat} {i x y : Nat} :
    (l.modify i (· + x)).modify i (· + y) = l.modify i (· + (x + y)) := by
  rw [List.modify_modify_eq]
  congr 1
  funext n
  exact Nat.add_assoc n x y

theorem slash_book {i p : Nat} (h : slash_validator E f i none t = .ok () u)
    (hp : get_beacon_proposer_index E t = .ok p) :
    bookOf u = Book.slash E f t p (bookOf t) i := by
  obtain ⟨q, share, v, v₁, hq, hshare, h⟩ := slash_validator_effect h
  rw [hp] at hq; cases hq
  obtain ⟨x, hx, -⟩ := h.exit
  have he : effectiveBalance t i = v.effective_balance := by
    unfold effectiveBalance; rw [hx.before]
  have hh : holders u = holders t := by
    unfold holders
    rw [h.validators]
    refine holders_set hx.before ?_ ?_
    · show v₁.public_key = _
      rw [hx.validator]
    · show v₁.withdrawal_credentials[0] = _
      rw [hx.validator]
  have hf : u.pending_balance_deposits = t.pending_balance_deposits := by
    have := congrArg State.pending_balance_deposits h.frame
    exact this
  have hb := h.balances
  rw [Option.getD_none, modify_twice, Nat.add_sub_cancel' (share_le hshare), ← he] at hb
  let w : State := { t with
    balances := t.balances.modify i (· - effectiveBalance t i / slashPenaltyQuotient E f) }
  have k1 : bookOf w = (bookOf t).debit i (effectiveBalance t i / slashPenaltyQuotient E f) :=
    book_balances (t := t) (u := w) rfl rfl rfl
  unfold Book.slash
  rw [← k1]
  exact book_balances (t := w) hh hb hf

/-! ## What the parts see does not change -/

theorem Inside.weight (h : Inside E f s t) {i : Nat} (hi : i < s.validators.length) :
    effectiveBalance t i = effectiveBalance s i := by
  obtain ⟨w, hw, he⟩ := h.eff.2 i _ (List.getElem?_eq_getElem hi)
  unfold effectiveBalance
  rw [hw, List.getElem?_eq_getElem hi]
  exact he

theorem Inside.active (hslot : s.slot < 2 ^ 63) (h : Inside E f s t) :
    activeIndices t (epochOf E t.slot) = activeIndices s (epochOf E s.slot) := by
  have h0 : epochOf E s.slot ≤ s.slot := Nat.div_le_self _ _
  rw [h.slot]
  exact active_decided (history_pres (dutyPre E) (fun _ => entry_duty) h.history)
    (by unfold decided; omega) (by unfold FAR_FUTURE_EPOCH; omega)

theorem Inside.total (hslot : s.slot < 2 ^ 63) (h : Inside E f s t) :
    totalEffective t (activeIndices t (epochOf E t.slot)) =
      totalEffective s (activeIndices s (epochOf E s.slot)) := by
  rw [h.active hslot]
  unfold totalEffective
  congr 1
  refine List.map_congr_left fun i hi => h.weight ?_
  unfold activeIndices at hi
  exact List.mem_range.1 (List.mem_filter.1 hi).1

theorem Inside.baseReward (hslot : s.slot < 2 ^ 63) (h : Inside E f s t) {i : Nat}
    (hi : i < s.validators.length) : baseReward E t i = baseReward E s i := by
  unfold Spec.baseReward
  rw [h.weight hi, h.total hslot]

theorem Inside.syncReward (hslot : s.slot < 2 ^ 63) (h : Inside E f s t) :
    syncReward E t = syncReward E s := by
  unfold Spec.syncReward activeBalance
  rw [h.total hslot]

/-! ## The validators a block slashes -/

theorem slashes_book {p : Nat} (hp : ∀ t, Inside E f s t → get_beacon_proposer_index E t = .ok p)
    {l : List Nat} (hl : ∀ i ∈ l, i < s.validators.length) (ht : Inside E f s t)
    (h : forEach l (fun i => slash_validator E f i none) t = .ok () u) :
    bookOf u = l.foldl (Book.slash E f s p) (bookOf t) := by
  induction l generalizing t with
  | nil => rw [forEach_nil] at h; cases h; rfl
  | cons i l ih =>
    rw [forEach_cons] at h
    obtain ⟨x, h1, h2⟩ := h
    have ix : Inside E f s x :=
      inside_part (.slash_validator _ _) slash_weights slash_mod (by decide) ht h1
    rw [ih (fun j hj => hl j (.tail _ hj)) ix h2, slash_book h1 (hp t ht), List.foldl_cons]
    unfold Book.slash
    rw [ht.weight (hl i (.head _))]

/-- After some of the slashings: these are slashed, the others are as they were. -/
structure Slashed (s : State) (done : List Nat) (t : State) : Prop where
  slot : t.slot = s.slot
  length : t.validators.length = s.validators.length
  others : ∀ i ∉ done, t.validators[i]? = s.validators[i]?
  done : ∀ i ∈ done, ∃ v, t.validators[i]? = some v ∧ v.slashed = true

theorem slashed_more {done l : List Nat} (ht : Slashed s done t)
    (h : forEach l (fun i => slash_validator E f i none) t = .ok () u) :
    Slashed s (done ++ l) u := by
  obtain ⟨h1, h2, h3, h4⟩ := slash_run h
  refine ⟨h2.trans ht.slot, h1.trans ht.length, fun i hi => ?_, fun i hi => ?_⟩
  · rw [List.mem_append, not_or] at hi
    rw [h3 i hi.2, ht.others i hi.1]
  · by_cases hl : i ∈ l
    · exact h4 i hl
    · obtain ⟨v, hv, hs⟩ := ht.done i ((List.mem_append.1 hi).resolve_right hl)
      exact ⟨v, (h3 i hl).trans hv, hs⟩

theorem culprits_later {done : List Nat} (ht : Slashed s done t) {a b : IndexedAttestation} :
    culprits E t a b = (culprits E s a b).filter fun i => decide (i ∉ done) := by
  unfold culprits
  rw [ht.length, List.filter_filter, ht.slot]
  refine List.filter_congr fun i _ => ?_
  by_cases hi : i ∈ done
  · obtain ⟨v, hv, hs⟩ := ht.done i hi
    have : ¬ Slashable v (epochOf E s.slot) := fun h => by
      have := h.1; rw [hs] at this; cases this
    rw [hv]
    simp [hi, this]
  · rw [ht.others i hi]
    simp [hi]

theorem culprits_range {a b : IndexedAttestation} {i : Nat} (h : i ∈ culprits E s a b) :
    i < s.validators.length := by
  obtain ⟨-, -, v, hv, -⟩ := mem_culprits.1 h
  exact (List.getElem?_eq_some_iff.1 hv).1

theorem attesters_book {p : Nat}
    (hp : ∀ t, Inside E f s t → get_beacon_proposer_index E t = .ok p)
    {ops : List AttesterSlashing} {done : List Nat} (ht : Inside E f s t) (hd : Slashed s done t)
    (h : Runs (ops.map (process_attester_slashing E f)) t u) {B : Book}
    (hB : bookOf t = done.foldl (Book.slash E f s p) B) :
    let all := ops.foldl (fun done op => done ++
      (culprits E s op.attestation_1 op.attestation_2).filter fun i => decide (i ∉ done)) done
    bookOf u = all.foldl (Book.slash E f s p) B ∧ Slashed s all u := by
  induction ops generalizing t done with
  | nil => cases h; exact ⟨hB, hd⟩
  | cons op ops ih =>
    obtain ⟨x, h1, h2⟩ := h
    have hf := (process_attester_slashing_eq_ok.1 h1).2.2.2.2.2
    rw [culprits_later hd] at hf
    refine ih (inside_attester_slashing ht h1) (slashed_more hd hf) h2 ?_
    rw [slashes_book hp (fun i hi => culprits_range (List.mem_filter.1 hi).1) ht hf, hB,
      List.foldl_append]

theorem proposers_book {p : Nat}
    (hp : ∀ t, Inside E f s t → get_beacon_proposer_index E t = .ok p)
    {ops : List ProposerSlashing} {done : List Nat} (ht : Inside E f s t) (hd : Slashed s done t)
    (h : Runs (ops.map (process_proposer_slashing E f)) t u) {B : Book}
    (hB : bookOf t = done.foldl (Book.slash E f s p) B) :
    let all := done ++ ops.map fun op => op.signed_header_1.message.proposer_index
    bookOf u = all.foldl (Book.slash E f s p) B ∧ Slashed s all u := by
  induction ops generalizing t done with
  | nil => cases h; simpa using ⟨hB, hd⟩
  | cons op ops ih =>
    obtain ⟨x, h1, h2⟩ := h
    have hs := (process_proposer_slashing_eq_ok.1 h1).2.2
    have hf : forEach [op.signed_header_1.message.proposer_index]
        (fun i => slash_validator E f i none) t = .ok () x := by
      rw [forEach_cons]; exact ⟨_, hs, by rw [forEach_nil]⟩
    have hr : ∀ i ∈ [op.signed_header_1.message.proposer_index], i < s.validators.length := by
      intro i hi
      rw [List.mem_singleton] at hi; subst hi
      obtain ⟨_, _, v, _, -, -, he⟩ := slash_validator_effect hs
      obtain ⟨y, hy, -⟩ := he.exit
      rw [← hd.length]
      exact (List.getElem?_eq_some_iff.1 hy.before).1
    have := ih (inside_proposer_slashing ht h1) (slashed_more hd hf) h2 (by
      rw [slashes_book hp hr ht hf, hB, List.foldl_append])
    simpa using this

/-! ## Attestations -/

/-- The flags of both epochs are those of `s` and those the attestations `done` earn. -/
structure Noted (E : Env) (f : Fork) (s : State) (done : List Attestation) (t : State) : Prop where
  current : FlagsEarned (fun i j => ∃ a ∈ done, a.data.target.epoch = epochOf E s.slot ∧
    EarnsFlag E f s a i j) s.current_epoch_participation t.current_epoch_participation
  previous : FlagsEarned (fun i j => ∃ a ∈ done, a.data.target.epoch ≠ epochOf E s.slot ∧
    EarnsFlag E f s a i j) s.previous_epoch_participation t.previous_epoch_participation

theorem noted_iff {done : List Attestation} (h : Noted E f s done t) (ht : t.slot = s.slot)
    {d : AttestationData} {v : Nat} (hv : v < (flagsFor E s d).length) {j : Nat} (hj : j < 8) :
    FlagSet ((flagsFor E t d).getD v 0) j ↔ AlreadyEarned E f s done d v j := by
  unfold AlreadyEarned
  unfold flagsFor at hv ⊢
  rw [ht]
  by_cases hc : d.target.epoch = epochOf E s.slot
  · rw [if_pos hc] at hv
    rw [if_pos hc, if_pos hc]
    obtain ⟨y, hy, hf⟩ := h.current v _ (List.getElem?_eq_getElem hv)
    rw [List.getD_eq_getElem?_getD, List.getD_eq_getElem?_getD, hy, List.getElem?_eq_getElem hv,
      Option.getD_some, Option.getD_some, hf j hj]
    simp only [hc, iff_true]
  · rw [if_neg hc] at hv
    rw [if_neg hc, if_neg hc]
    obtain ⟨y, hy, hf⟩ := h.previous v _ (List.getElem?_eq_getElem hv)
    rw [List.getD_eq_getElem?_getD, List.getD_eq_getElem?_getD, hy, List.getElem?_eq_getElem hv,
      Option.getD_some, Option.getD_some, hf j hj]
    simp only [hc, iff_false]

theorem missing_new {done : List Attestation} (h : Noted E f s done t) (ht : t.slot = s.slot)
    {d : AttestationData} {v : Nat} (hv : v < (flagsFor E s d).length) {fl : List Nat} :
    missingWeight fl ((flagsFor E t d).getD v 0) = newWeight E f s done d fl v := by
  unfold missingWeight newWeight
  congr 2
  refine List.filter_congr fun j hj => ?_
  have : j < 8 := by
    simp only [List.mem_cons, List.not_mem_nil, or_false] at hj
    omega
  have := noted_iff h ht hv this (j := j)
  by_cases h1 : j ∈ fl <;> by_cases h2 : AlreadyEarned E f s done d v j <;>
    simp only [h1, h2, this, decide_true, decide_false, Bool.not_true, Bool.not_false, Bool.and_true,
      Bool.and_false, not_true_eq_false, not_false_eq_true, and_true, and_false]

/-! ## Deposits -/

theorem book_first (hlen : t.balances.length = t.validators.length) {key : PublicKey} {i : Nat}
    (h : FirstWithKey t key i) :
    (bookOf t).accounts.findIdx? (·.key = key) = some i := by
  obtain ⟨⟨v, hv, hk⟩, hf⟩ := h
  have hi := (List.getElem?_eq_some_iff.1 hv).1
  rw [List.findIdx?_eq_some_iff_getElem]
  have acc : ∀ (j : Nat) (hj : j < t.validators.length)
      (hj' : j < (bookOf t).accounts.length),
      ((bookOf t).accounts[j]).key = (t.validators[j]).public_key := by
    intro j hj hj'
    simp [bookOf]
  refine ⟨by rw [book_length hlen]; exact hi, ?_, ?_⟩
  · rw [decide_eq_true_eq, acc i hi]
    rw [List.getElem?_eq_getElem hi] at hv
    cases hv; exact hk
  · intro j hj
    have hj' : j < t.validators.length := Nat.lt_trans hj hi
    rw [decide_eq_true_eq, acc j hj']
    exact hf j hj _ (List.getElem?_eq_getElem hj')

theorem book_unknown {key : PublicKey} (h : UnknownKey t key) :
    (bookOf t).accounts.findIdx? (·.key = key) = none := by
  rw [List.findIdx?_eq_none_iff]
  intro a ha
  obtain ⟨j, hj, rfl⟩ := List.getElem_of_mem ha
  have : ((bookOf t).accounts[j]).key = (t.validators[j]'(by
      simp [bookOf] at hj; omega)).public_key := by simp [bookOf]
  rw [decide_eq_false_iff_not, this]
  exact h _ (List.getElem_mem _)

theorem zipWith_push {α β γ : Type} {g : α → β → γ} {l : List α} {m : List β} {x : α} {y : β}
    (h : m.length = l.length) :
    List.zipWith g (l ++ [x]) (m ++ [y]) = List.zipWith g l m ++ [g x y] := by
  rw [List.zipWith_append h.symm]; rfl

theorem deposit_book_early (hlen : t.balances.length = t.validators.length) {d : DepositData}
    (hf : f ≠ .Electra) (h : DepositEffect E f d t u) :
    bookOf u = (bookOf t).deposit E f d := by
  unfold Book.deposit
  cases h with
  | topUp i b known balance fits =>
    rw [book_first hlen known]
    simp only [if_neg hf]
    exact book_credit (t := t) rfl balance rfl rfl
  | added new signed =>
    rw [book_unknown new]
    simp only [signed, not_true_eq_false, if_false, if_neg hf]
    unfold withValidator bookOf
    split <;> simp only [zipWith_push hlen] <;> rfl
  | ignored new unsigned =>
    rw [book_unknown new]
    simp only [unsigned, not_false_eq_true, if_true]

theorem deposit_book_electra (hlen : t.balances.length = t.validators.length) {d : DepositData}
    (h : ElectraDepositEffect E d t u) : bookOf u = (bookOf t).deposit E .Electra d := by
  unfold Book.deposit
  cases h with
  | topUp i v known val signed no_switch =>
    have hi := (List.getElem?_eq_some_iff.1 val).1
    rw [book_first hlen known]
    simp only [if_true, book_accounts val (List.getElem?_eq_getElem (hlen ▸ hi)), if_neg no_switch]
    rfl
  | switch i b v known val signed switch balance =>
    rw [book_first hlen known]
    simp only [if_true, book_accounts val balance, if_pos switch]
    unfold compounding Book.compound bookOf
    simp only [Book.mk.injEq]
    constructor
    · apply List.ext_getElem?
      intro n
      rw [List.getElem?_set, List.getElem?_zipWith, List.getElem?_zipWith, List.getElem?_set]
      have h1 := (List.getElem?_eq_some_iff.1 val).1
      have h2 := (List.getElem?_eq_some_iff.1 balance).1
      have h3 : i < (List.zipWith (fun v b => (⟨v.public_key, v.withdrawal_credentials[0], b⟩ :
          Account)) t.validators t.balances).length := by rw [List.length_zipWith]; omega
      by_cases hn : i = n
      · subst hn
        rw [if_pos rfl, if_pos h1, if_pos rfl, if_pos h3]
        by_cases hb : b > E.min_activation_balance
        · rw [if_pos hb, List.getElem?_set_self h2, Nat.min_eq_right (Nat.le_of_lt hb)]
          simp
        · rw [if_neg hb, balance, Nat.min_eq_left (Nat.le_of_not_lt hb)]
          simp
      · rw [if_neg hn, if_neg hn]
        by_cases hb : b > E.min_activation_balance
        · rw [if_pos hb, List.getElem?_set_ne hn]
        · rw [if_neg hb]
    · by_cases hb : b > E.min_activation_balance <;> simp [hb]
  | added new signed =>
    rw [book_unknown new]
    simp only [signed, not_true_eq_false, if_false, if_true, book_length hlen]
    unfold withValidator bookOf
    simp only [if_neg (show ¬ Fork.Electra = Fork.Phase0 by decide), zipWith_push hlen]
    rfl

theorem deposit_book (hE : SaneConfig E) (hlen : t.balances.length = t.validators.length)
    {d : Deposit} (h : process_deposit E f d t = .ok () u) :
    bookOf u = (bookOf t).deposit E f d.data := by
  obtain ⟨-, -, h⟩ := process_deposit_ok_iff.1 h
  by_cases hf : f = .Electra
  · subst hf
    exact deposit_book_electra (t := { t with eth1_deposit_index := t.eth1_deposit_index + 1 }) hlen
      (electra_apply_deposit_eq_ok.1 h)
  · exact deposit_book_early (t := { t with eth1_deposit_index := t.eth1_deposit_index + 1 }) hlen hf
      ((apply_deposit_eq_ok hf (Nat.pos_iff_ne_zero.1 hE.effective_balance_increment)).1 h)

theorem receipt_book (hlen : t.balances.length = t.validators.length) {r : DepositReceipt}
    (h : Electra.process_deposit_receipt E r t = .ok () u) :
    bookOf u = (bookOf t).deposit E .Electra
      ⟨r.public_key, r.withdrawal_credentials, r.amount, r.signature⟩ := by
  have h := (Props.C69_receipt_iff E r t u).1 h
  generalize hx : { t with deposit_receipts_start_index :=
    if t.deposit_receipts_start_index = 2 ^ 64 - 1 then r.index
    else t.deposit_receipts_start_index } = x at h
  have hb : bookOf x = bookOf t := by rw [← hx]; rfl
  rw [← hb]
  exact deposit_book_electra (by rw [← hx]; exact hlen) h

/-! ## Exits, credential changes, requests -/

theorem exit_book (hE : SaneConfig E) {op : SignedVoluntaryExit} (hs : t.slot < 2 ^ 63)
    (h : process_voluntary_exit E f op t = .ok () u) : bookOf u = bookOf t := by
  obtain ⟨-, h⟩ := (process_voluntary_exit_eq_ok (Nat.pos_iff_ne_zero.1 hE.slots_per_epoch.1)
    (by unfold U64_BOUND; omega)).1 h
  obtain ⟨v, v', h⟩ := Fork.initiate_validator_exit_effect h
  rw [h.state]
  refine book_same ?_ rfl rfl
  refine holders_set h.before ?_ ?_ <;> rw [h.validator]

theorem change_book {op : SignedBlsToExecutionChange}
    (h : process_bls_to_execution_change E op t = .ok () u) :
    bookOf u = (bookOf t).toExecution op.message.validator_index := by
  obtain ⟨w, c, hw, hc, rfl⟩ := (Props.C46_credential_change_iff E op t u).1 h
  have hk : c[0] = 1 := by
    have h5 : c.toList[0]? = some 1 := by rw [hc]; rfl
    simpa using h5
  unfold Book.toExecution bookOf
  simp only [Book.mk.injEq, and_true]
  apply List.ext_getElem?
  intro n
  rw [List.getElem?_modify, List.getElem?_zipWith, List.getElem?_zipWith, List.getElem?_set]
  by_cases hn : op.message.validator_index = n
  · subst hn
    have hv := hw.exists_validator
    rw [if_pos rfl, if_pos (List.getElem?_eq_some_iff.1 hv).1, hv]
    cases t.balances[op.message.validator_index]? <;> simp [hk]
  · simp only [if_neg hn]
    cases t.validators[n]? <;> cases t.balances[n]? <;> simp

theorem request_book {r : ExecutionLayerWithdrawalRequest}
    (h : Electra.process_execution_layer_withdrawal_request E r t = .ok () u) :
    bookOf u = bookOf t := by
  cases Props.C69_request E r t u h with
  | leave j w epoch left request queued =>
    refine book_same ?_ rfl rfl
    exact holders_set request.2.1.entry rfl rfl
  | part => rfl
  | ignored => rfl

/-! ## The sync committee -/

theorem seats_book {r q p : Nat} {l : List (Nat × Bool)} {B : Book} {j : Nat} :
    (l.foldl (Book.seat r q p) B).accounts[j]? =
      B.accounts[j]?.map fun a => { a with balance := settle r q p j l a.balance } := by
  induction l generalizing B with
  | nil => simp [settle]
  | cons x l ih =>
    obtain ⟨i, c⟩ := x
    rw [List.foldl_cons, ih]
    cases c
    · simp only [Book.seat, Book.debit, settle, List.getElem?_modify]
      by_cases h : i = j <;> cases B.accounts[j]? <;> simp [h]
    · simp only [Book.seat, Book.credit, settle, List.getElem?_modify]
      by_cases h : i = j <;> by_cases h' : p = j <;> cases B.accounts[j]? <;> simp [h, h']

theorem seats_queue {r q p : Nat} {l : List (Nat × Bool)} {B : Book} :
    (l.foldl (Book.seat r q p) B).queue = B.queue := by
  induction l generalizing B with
  | nil => rfl
  | cons x l ih =>
    obtain ⟨i, c⟩ := x
    rw [List.foldl_cons, ih]
    cases c <;> rfl

theorem settle_absent {r q p p' j : Nat} {l : List (Nat × Bool)} {b : Nat}
    (h : ∀ x ∈ l, x.2 = false) : settle r q p j l b = settle r q p' j l b := by
  induction l generalizing b with
  | nil => rfl
  | cons x l ih =>
    obtain ⟨i, c⟩ := x
    obtain rfl : c = false := h _ (.head _)
    exact ih fun x hx => h x (.tail _ hx)

theorem sync_book {a : SyncAggregate} {p : Nat} (h : process_sync_aggregate E a t = .ok () u)
    (hp : get_beacon_proposer_index E t = .ok p) :
    ∃ seats, Seats u seats ∧ bookOf u = (seats.zip a.sync_committee_bits).foldl
      (Book.seat (syncReward E t) (syncProposerReward E t) p) (bookOf t) := by
  obtain ⟨-, seats, q, bs, hseats, hq, rfl, -, hb⟩ := sync_aggregate_ok h
  refine ⟨seats, hseats, ?_⟩
  have key : ∀ j b, settle (syncReward E t) (syncProposerReward E t) q j
      (seats.zip a.sync_committee_bits) b = settle (syncReward E t) (syncProposerReward E t) p j
      (seats.zip a.sync_committee_bits) b := by
    intro j b
    by_cases hs : signers t.current_sync_committee.public_keys a.sync_committee_bits = []
    · exact settle_absent (signers_nil hseats.1 hs)
    · have := hq hs
      rw [hp] at this; cases this
      rfl
  have hacc : (bookOf { t with balances := bs }).accounts =
      ((seats.zip a.sync_committee_bits).foldl
        (Book.seat (syncReward E t) (syncProposerReward E t) p) (bookOf t)).accounts := by
    apply List.ext_getElem?
    intro j
    rw [seats_book]
    unfold bookOf
    rw [List.getElem?_zipWith, List.getElem?_zipWith]
    dsimp only
    rw [hb]
    cases t.validators[j]? <;> cases t.balances[j]? <;> simp [key]
  have hqueue := seats_queue (r := syncReward E t) (q := syncProposerReward E t) (p := p)
    (l := seats.zip a.sync_committee_bits) (B := bookOf t)
  generalize hB : (seats.zip a.sync_committee_bits).foldl
    (Book.seat (syncReward E t) (syncProposerReward E t) p) (bookOf t) = B at hacc hqueue
  cases B with
  | mk acc que =>
    show (⟨(bookOf { t with balances := bs }).accounts, _⟩ : Book) = _
    rw [hacc]
    dsimp only at hqueue ⊢
    rw [hqueue]
    rfl

/-! ## Totals -/

theorem sum_modify_le {l : List Account} {i x : Nat} {g : Account → Account}
    (h : ∀ a, (g a).balance ≤ a.balance + x) :
    ((l.modify i g).map (·.balance)).sum ≤ (l.map (·.balance)).sum + x := by
  induction l generalizing i with
  | nil => simp
  | cons a l ih =>
    cases i with
    | zero =>
      have := h a
      simp only [List.modify_zero_cons, List.map_cons, List.sum_cons]
      omega
    | succ i =>
      have := ih (i := i)
      simp only [List.modify_succ_cons, List.map_cons, List.sum_cons]
      omega

theorem total_credit {B : Book} {i x : Nat} : (B.credit i x).total ≤ B.total + x := by
  have := sum_modify_le (l := B.accounts) (i := i) (x := x)
    (g := fun a => { a with balance := a.balance + x }) (fun a => Nat.le_refl _)
  unfold Book.credit Book.total
  dsimp only
  omega

theorem total_debit {B : Book} {i x : Nat} : (B.debit i x).total ≤ B.total := by
  have := sum_modify_le (l := B.accounts) (i := i) (x := 0)
    (g := fun a => { a with balance := a.balance - x }) (fun a => Nat.sub_le _ _)
  unfold Book.debit Book.total
  dsimp only
  omega

theorem total_kind {B : Book} {i : Nat} : (B.toExecution i).total ≤ B.total := by
  have := sum_modify_le (l := B.accounts) (i := i) (x := 0)
    (g := fun a => { a with kind := 1 }) (fun a => Nat.le_refl _)
  unfold Book.toExecution Book.total
  dsimp only
  omega

theorem account_sum_set {l : List Account} {i : Nat} {a b : Account} (h : l[i]? = some a) :
    ((l.set i b).map (·.balance)).sum + a.balance = (l.map (·.balance)).sum + b.balance := by
  induction l generalizing i with
  | nil => simp at h
  | cons c l ih =>
    cases i with
    | zero =>
      simp only [List.getElem?_cons_zero, Option.some.injEq] at h
      subst h
      simp only [List.set_cons_zero, List.map_cons, List.sum_cons]
      omega
    | succ i =>
      rw [List.getElem?_cons_succ] at h
      have := ih h
      simp only [List.set_cons_succ, List.map_cons, List.sum_cons]
      omega

theorem total_compound {B : Book} {i : Nat} {a : Account} (h : B.accounts[i]? = some a) :
    (B.compound E i a).total = B.total := by
  have := account_sum_set (b := { a with kind := 2, balance := min a.balance E.min_activation_balance }) h
  unfold Book.compound Book.total
  dsimp only at this ⊢
  rw [List.map_append, List.sum_append]
  split
  · simp only [List.map_cons, List.map_nil, List.sum_cons, List.sum_nil]
    omega
  · simp only [List.map_nil, List.sum_nil]
    omega

theorem total_deposit {B : Book} {d : DepositData} :
    (B.deposit E f d).total ≤ B.total + d.amount := by
  unfold Book.deposit
  split
  · split
    · omega
    · split <;>
      · unfold Book.total
        simp only [List.map_append, List.sum_append, List.map_cons, List.map_nil, List.sum_cons,
          List.sum_nil]
        omega
  · rename_i i hi
    split
    · have hq : (⟨B.accounts, B.queue ++ [⟨i, d.amount⟩]⟩ : Book).total = B.total + d.amount := by
        unfold Book.total
        simp only [List.map_append, List.sum_append, List.map_cons, List.map_nil, List.sum_cons,
          List.sum_nil]
        omega
      dsimp only
      split
      · rename_i a ha
        split
        · exact Nat.le_of_eq
            ((total_compound (B := ⟨B.accounts, B.queue ++ [⟨i, d.amount⟩]⟩) ha).trans hq)
        · omega
      · omega
    · exact total_credit

theorem total_foldl {α : Type} {g : Book → α → Book} {w : α → Nat} {l : List α} {B : Book}
    (h : ∀ B, ∀ x ∈ l, (g B x).total ≤ B.total + w x) :
    (l.foldl g B).total ≤ B.total + (l.map w).sum := by
  induction l generalizing B with
  | nil => simp
  | cons x l ih =>
    have h1 := h B x (.head _)
    have h2 := ih (B := g B x) fun B y hy => h B y (.tail _ hy)
    simp only [List.foldl_cons, List.map_cons, List.sum_cons]
    omega

/-! ## Slashed flags -/

/-- Entries of `t` keep their slashed flag. -/
def KeepsFlags (t u : State) : Prop :=
  ∀ (i : Nat) v, t.validators[i]? = some v →
    ∃ w, u.validators[i]? = some w ∧ w.slashed = v.slashed

theorem keepsFlagsPre : Preorder' KeepsFlags :=
  ⟨fun _ _ v hv => ⟨v, hv, rfl⟩, fun h h' i v hv => by
    obtain ⟨w, hw, h1⟩ := h i v hv
    obtain ⟨x, hx, h2⟩ := h' i w hw
    exact ⟨x, hx, h2.trans h1⟩⟩

theorem keeps_set {i : Nat} {v w : Validator} (hv : t.validators[i]? = some v)
    (hu : u.validators = t.validators.set i w) (hw : w.slashed = v.slashed) : KeepsFlags t u := by
  intro j x hx
  rw [hu]
  by_cases hj : i = j
  · subst hj
    rw [hv] at hx; cases hx
    exact ⟨w, List.getElem?_set_self (List.getElem?_eq_some_iff.1 hv).1, hw⟩
  · exact ⟨x, (List.getElem?_set_ne hj).trans hx, rfl⟩

theorem keeps_append {v : Validator} (hu : u.validators = t.validators ++ [v]) :
    KeepsFlags t u := by
  intro j x hx
  rw [hu]
  exact ⟨x, (List.getElem?_append_left (List.getElem?_eq_some_iff.1 hx).1).trans hx, rfl⟩

theorem keeps_same (hu : u.validators = t.validators) : KeepsFlags t u := by
  intro j x hx
  rw [hu]
  exact ⟨x, hx, rfl⟩

theorem keeps_mod {W : List Field} {m : M Unit} (h : Modifies W m) (hW : Field.validators ∉ W)
    (hm : m t = .ok () u) : KeepsFlags t u := by
  have g : ChangesOnly W t u := h.toOk.ok hm
  exact keeps_same (g .validators hW)

theorem keeps_deposit_effect {d : DepositData} (h : DepositEffect E f d t u) : KeepsFlags t u := by
  cases h with
  | topUp i b known balance fits => exact keeps_same rfl
  | added new signed =>
    unfold withValidator
    split <;> exact keeps_append rfl
  | ignored new unsigned => exact keeps_same rfl

theorem keeps_electra_deposit {d : DepositData} (h : ElectraDepositEffect E d t u) :
    KeepsFlags t u := by
  cases h with
  | topUp => exact keeps_same rfl
  | switch i b v known val signed switch balance => exact keeps_set val rfl rfl
  | added new signed => exact keeps_append rfl

theorem keeps_deposit (hE : SaneConfig E) {d : Deposit} (h : process_deposit E f d t = .ok () u) :
    KeepsFlags t u := by
  obtain ⟨-, -, h⟩ := process_deposit_ok_iff.1 h
  by_cases hf : f = .Electra
  · subst hf
    exact keeps_electra_deposit (t := { t with eth1_deposit_index := t.eth1_deposit_index + 1 })
      (electra_apply_deposit_eq_ok.1 h)
  · exact keeps_deposit_effect (t := { t with eth1_deposit_index := t.eth1_deposit_index + 1 })
      ((apply_deposit_eq_ok hf (Nat.pos_iff_ne_zero.1 hE.effective_balance_increment)).1 h)

theorem keeps_receipt {r : DepositReceipt} (h : Electra.process_deposit_receipt E r t = .ok () u) :
    KeepsFlags t u := by
  have h := (Props.C69_receipt_iff E r t u).1 h
  generalize hx : { t with deposit_receipts_start_index :=
    if t.deposit_receipts_start_index = 2 ^ 64 - 1 then r.index
    else t.deposit_receipts_start_index } = x at h
  have hv : x.validators = t.validators := by rw [← hx]
  have := keeps_electra_deposit h
  unfold KeepsFlags at this
  rw [hv] at this
  exact this

theorem keeps_exit (hE : SaneConfig E) {op : SignedVoluntaryExit} (hs : t.slot < 2 ^ 63)
    (h : process_voluntary_exit E f op t = .ok () u) : KeepsFlags t u := by
  obtain ⟨-, h⟩ := (process_voluntary_exit_eq_ok (Nat.pos_iff_ne_zero.1 hE.slots_per_epoch.1)
    (by unfold U64_BOUND; omega)).1 h
  obtain ⟨v, v', h⟩ := Fork.initiate_validator_exit_effect h
  rw [h.state]
  exact keeps_set h.before rfl (by rw [h.validator])

theorem keeps_change {op : SignedBlsToExecutionChange}
    (h : process_bls_to_execution_change E op t = .ok () u) : KeepsFlags t u := by
  obtain ⟨w, c, hw, hc, rfl⟩ := (Props.C46_credential_change_iff E op t u).1 h
  exact keeps_set hw.exists_validator rfl rfl

theorem keeps_request {r : ExecutionLayerWithdrawalRequest}
    (h : Electra.process_execution_layer_withdrawal_request E r t = .ok () u) :
    KeepsFlags t u := by
  cases Props.C69_request E r t u h with
  | leave j w epoch left request queued => exact keeps_set request.2.1.entry rfl rfl
  | part => exact keeps_same rfl
  | ignored => exact keeps_same rfl

end Books

end Verif
