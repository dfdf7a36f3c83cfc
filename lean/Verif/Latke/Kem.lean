import Verif.Latke.Prims

/-!
# The KEM used by CAKE and SIGMA-R

Both use `saber::lightsaber::{keygen_ind_cpa, encapsulate_ind_cpa, decapsulate_ind_cpa}`
(latke/src/pake/cake.rs:9-13, latke/src/ibke/id_sigma_r.rs).  The two state machines are modelled over any KEM
with these sizes; `Verif.Saber` models the actual one.
-/

namespace Verif.Latke

/-- A KEM with LightSaber's sizes (`INDCPA_PUBLICKEYBYTES` = 672, ciphertext 736, shared secret 32). -/
structure Kem where
  Pk : Type
  Sk : Type
  /-- what `keygen_ind_cpa` draws from its RNG -/
  KeyCoins : Type
  /-- what `encapsulate_ind_cpa` draws from its RNG -/
  EncCoins : Type
  keygen : KeyCoins → Pk × Sk
  encap : EncCoins → Pk → ByteArr 32 × ByteArr 736
  decap : ByteArr 736 → Sk → ByteArr 32
  pkToBytes : Pk → ByteArr 672
  pkFromBytes : ByteArr 672 → Pk

/-- Coins for a call that may generate a key pair or encapsulate. -/
structure KemCoins (E : Kem) where
  key : E.KeyCoins
  enc : E.EncCoins

/-- Decapsulation inverts encapsulation for this key pair (sent through its byte encoding) and these encapsulation coins. -/
def Kem.Correct (E : Kem) (kc : E.KeyCoins) (ec : E.EncCoins) : Prop :=
  E.decap (E.encap ec (E.pkFromBytes (E.pkToBytes (E.keygen kc).1))).2 (E.keygen kc).2
    = (E.encap ec (E.pkFromBytes (E.pkToBytes (E.keygen kc).1))).1

/-- A toy correct KEM for non-vacuity examples: the public key is the secret key, the ciphertext carries the secret xored with the key. -/
def toyKem : Kem where
  Pk := ByteArr 672
  Sk := ByteArr 672
  KeyCoins := ByteArr 672
  EncCoins := ByteArr 32
  keygen c := (c, c)
  encap c pk := (c, ⟨xorBytes c.1 (pk.1.take 32) ++ pk.1 ++ List.replicate 32 0, by
    simp [length_xorBytes, c.2, pk.2]⟩)
  decap ct sk := ⟨xorBytes (ct.1.take 32) (sk.1.take 32), by simp [length_xorBytes, ct.2, sk.2]⟩
  pkToBytes := id
  pkFromBytes := id

theorem toyKem_correct (kc : toyKem.KeyCoins) (ec : toyKem.EncCoins) : toyKem.Correct kc ec := by
  have h1 := ec.2
  have h2 := kc.2
  apply Subtype.ext
  have hl : (xorBytes ec.1 (kc.1.take 32)).length = 32 := by simp [length_xorBytes, h1, h2]
  show xorBytes ((xorBytes ec.1 (kc.1.take 32) ++ kc.1 ++ List.replicate 32 0).take 32) (kc.1.take 32) = ec.1
  rw [List.append_assoc, List.take_append_of_le_length (by omega), List.take_of_length_le (by omega)]
  exact xorBytes_self_cancel _ _ (by simp [h1, h2])

end Verif.Latke
