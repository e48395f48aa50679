import Verif.Model.KeyFiles
import Verif.Spec.KeyFiles
import Verif.Proofs.Text
import Verif.Props.Keys

/-!
# C101: the keystores a user is given hold the keys of their mnemonic

"What `ec validator generate-lighthouse-keystores` prints has one keystore for every index asked for,
in order, and each opens with the password printed beside it to the key the standards derive."
-/

namespace Verif.Props

open Spec Blobs Keys Text Json

/-- What is written of a keystore is enough to open it. -/
theorem openFile_to_json (P : Primitives) (ks : Keystore) (pk : List UInt8) (uuid password : List Char) :
    openFile P (ks.to_json pk uuid) password = openKeystore P ks password := by
  have n1 : numAt ["version"] (ks.to_json pk uuid) = some 4 := rfl
  have t1 : textAt ["crypto", "kdf", "function"] (ks.to_json pk uuid) = some "scrypt".toList := rfl
  have t2 : textAt ["crypto", "checksum", "function"] (ks.to_json pk uuid) =
    some "sha256".toList := rfl
  have t3 : textAt ["crypto", "cipher", "function"] (ks.to_json pk uuid) =
    some "aes-128-ctr".toList := rfl
  have n2 : numAt ["crypto", "kdf", "params", "dklen"] (ks.to_json pk uuid) = some 32 := rfl
  have n3 : numAt ["crypto", "kdf", "params", "n"] (ks.to_json pk uuid) = some ks.kdf.n := rfl
  have n4 : numAt ["crypto", "kdf", "params", "r"] (ks.to_json pk uuid) = some ks.kdf.r := rfl
  have n5 : numAt ["crypto", "kdf", "params", "p"] (ks.to_json pk uuid) = some ks.kdf.p := rfl
  have b1 : bytesAt ["crypto", "kdf", "params", "salt"] (ks.to_json pk uuid) = some ks.kdf.salt :=
    hexDecode_write _
  have b2 : bytesAt ["crypto", "checksum", "message"] (ks.to_json pk uuid) = some ks.checksum :=
    hexDecode_write _
  have b3 : bytesAt ["crypto", "cipher", "params", "iv"] (ks.to_json pk uuid) = some ks.cipher.iv :=
    hexDecode_write _
  have b4 : bytesAt ["crypto", "cipher", "message"] (ks.to_json pk uuid) = some ks.cipher.message :=
    hexDecode_write _
  unfold openFile openKeystore
  rw [n1, t1, t2, t3, n2, n3, n4, n5, b1, b2, b3, b4]
  simp only [guard, if_true, Option.bind_eq_bind, Option.pure_def, Option.bind_some]
  split <;> rfl

/-- **C101** The entry for every index has the label and the public key of its signing key, and the
password beside it opens it as the standard says, to the key that the standards derive from the seed.
The initialisation vectors of C61 are excepted. -/
theorem C101_entries_partial (P : Primitives) (K : Links) (draws : Nat → Draw) (fuel : Nat)
    (seed : List UInt8) (start stop : Nat) (out : Json)
    (h : generate_lighthouse_keystores P K draws fuel seed start stop = .ok out)
    (hiv : ∀ k, (draws k).iv.length = 16 ∧ (draws k).iv.drop 8 ≠ List.replicate 8 0xff) :
    ∃ root entries, FirstNonzero P seed root ∧ out = .arr entries ∧ entries.length = stop - start ∧
      ∀ k < stop - start, ∃ entry file password secret,
        entries[k]? = some entry ∧
        textAt ["voting_keystore"] entry = some (K.print file) ∧
        textAt ["voting_keystore_password"] entry = some password ∧
        DerivedAlong P root [12381, 3600, start + k, 0, 0] secret ∧
        (openFile P file password).map ofBeBytes = some secret ∧
        textAt ["path"] file =
          some ("m/12381/3600/".toList ++ decimal (start + k) ++ "/0/0".toList) ∧
        textAt ["pubkey"] file = some (write_bytes_to_lower_hex (K.public_key secret)) := by
  unfold generate_lighthouse_keystores at h
  cases hg : generate P fuel seed start stop with
  | error e => rw [hg] at h; cases h
  | ok r =>
    obtain ⟨signing, withdrawal⟩ := r
    rw [hg] at h
    cases h
    obtain ⟨hl, -, root, hroot, hkeys⟩ := C57_generate P fuel seed start stop _ _ hg
    refine ⟨root, _, hroot, rfl, by unfold generate_keystores; rw [List.length_mapIdx, hl], ?_⟩
    intro k hk
    obtain ⟨s, -, hs, -, -, hd, -, hp⟩ := hkeys k hk
    have hlt : s.private_key < MODULUS := by
      have : ∀ {root : Nat} {path : List Nat} {key : Nat}, DerivedAlong P root path key →
          path ≠ [] → key < MODULUS := by
        intro root path key hd
        induction hd with
        | here key => intro h; exact absurd rfl h
        | child parent index key path last h1 h2 ih =>
          intro _
          cases h2 with
          | here => exact (firstNonzero_range h1).2
          | child => exact ih (by simp)
      exact this hd (by simp)
    obtain ⟨h1, h2⟩ := C61_keystore_opens_partial P s (write_hex_from_bytes (draws k).passphrase)
      (draws k).salt (draws k).iv K.recommended.n K.recommended.r K.recommended.p hlt
      (hiv k).1 (hiv k).2
    refine ⟨with_passphrase_to_json K (new_with_generated_passphrase P K s (draws k)).1
      (write_hex_from_bytes (draws k).passphrase),
      (new_with_generated_passphrase P K s (draws k)).1, write_hex_from_bytes (draws k).passphrase, s.private_key, ?_, ?_, ?_, hd, ?_, ?_, ?_⟩
    · unfold generate_keystores
      rw [List.getElem?_mapIdx, hs]; rfl
    · rfl
    · rfl
    · unfold new_with_generated_passphrase
      rw [openFile_to_json, h1, Option.map_some, h2]
    · rw [← hp]; rfl
    · rfl

/-- **C101** What is missing: as C61 has it, a keystore drawn with such a vector may not open. -/
theorem C101_counter_wraps : ∃ (P : Primitives) (K : Links) (draws : Nat → Draw) (fuel : Nat)
    (seed : List UInt8) (file : Json) (password : List Char) (pair : KeyPair),
    (draws 0).iv.length = 16 ∧ (generate P fuel seed 0 1).toOption.map (·.1) = some [pair] ∧
    new_with_generated_passphrase P K pair (draws 0) = (file, password) ∧
    (openFile P file password).map ofBeBytes ≠ some pair.private_key := by
  refine ⟨toyPrims, ⟨fun _ => [], fun _ => [], ⟨1, 1, 1⟩⟩,
    fun _ => ⟨[], [], List.replicate 8 0 ++ List.replicate 8 0xff, []⟩, 5, [1, 2, 3], _, _,
    ⟨6, "m/12381/3600/0/0/0".toList⟩, by decide, by decide +kernel, rfl, ?_⟩
  rw [openFile_to_json]
  decide +kernel

/-- **C101** The public key is written with the prefix `0x`, which the keystores of EIP-2335 do not
have. -/
theorem C101_prefix (P : Primitives) (K : Links) (pair : KeyPair) (d : Draw) :
    ∃ rest, textAt ["pubkey"] (new_with_generated_passphrase P K pair d).1 = some ('0' :: 'x' :: rest) ∧
      hexDecode rest = some (K.public_key pair.private_key) ∧
      bytesAt ["pubkey"] (new_with_generated_passphrase P K pair d).1 = none := by
  refine ⟨write_hex_from_bytes (K.public_key pair.private_key), rfl, hexDecode_write _, ?_⟩
  show hexDecode ('0' :: 'x' :: write_hex_from_bytes (K.public_key pair.private_key)) = none
  unfold hexDecode
  simp [hexValue]

/-! ## Example -/

def toyLinks : Links := ⟨fun _ => ['{'], fun k => toBeBytes 48 k, ⟨2, 1, 1⟩⟩

def toyDraws (k : Nat) : Draw :=
  ⟨[UInt8.ofNat k, 0xab], [7], List.replicate 16 0x55, ['u']⟩

example : (generate_lighthouse_keystores toyPrims toyLinks toyDraws 5 [1, 2, 3] 7 9).toOption.isSome
      = true ∧
    (∀ k, (toyDraws k).iv.length = 16 ∧ (toyDraws k).iv.drop 8 ≠ List.replicate 8 0xff) := by
  refine ⟨by decide +kernel, fun k => ?_⟩
  exact ⟨rfl, show List.replicate 8 0x55 ≠ List.replicate 8 (0xff : UInt8) by decide⟩

example : (new_with_generated_passphrase toyPrims toyLinks ⟨6, ['m']⟩ (toyDraws 1)).2 =
      "01ab".toList ∧
    openFile toyPrims (new_with_generated_passphrase toyPrims toyLinks ⟨6, ['m']⟩ (toyDraws 1)).1
      "01ab".toList = some (toBeBytes 32 6) ∧
    openFile toyPrims (new_with_generated_passphrase toyPrims toyLinks ⟨6, ['m']⟩ (toyDraws 1)).1
      "01a".toList = none := by
  decide +kernel

end Verif.Props
