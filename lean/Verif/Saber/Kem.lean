import Verif.Saber.Generic
import Verif.Latke.Kem

/-!
# The KEM interface used by CAKE and SIGMA-R, instantiated with the model of saber-rust

`latke/src/pake/cake.rs:9-14` and `latke/src/ibke/id_sigma_r.rs:25-32` import `keygen_ind_cpa`, `encapsulate_ind_cpa`, `decapsulate_ind_cpa`,
`INDCPAPublicKey` of `saber::lightsaber`.
-/

namespace Verif.Saber

/-- LightSaber-CPA as the abstract KEM of the protocols (lightsaber.rs, generic.rs:402-411 `indcpa_kem_keypair` draws `seed`, `noiseseed`;
generic.rs:545-555 `encapsulate_ind_cpa` draws `m`, `noiseseed`). -/
def lightKem (H : Hashes) : Latke.Kem where
  Pk := CpaPk light
  Sk := CpaSk light
  KeyCoins := ByteArr 32 × ByteArr 32
  EncCoins := ByteArr 32 × ByteArr 32
  keygen c := cpaKeypair H light c.1 c.2
  encap c pk := encapsulateCpa H light c.1 c.2 pk
  decap ct sk := decapsulateCpa light ct sk
  pkToBytes pk := pk.toBytes
  pkFromBytes b := CpaPk.fromBytes (I := light) b

end Verif.Saber
