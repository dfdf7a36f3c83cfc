import Verif.Dilithium35.Machine
import Verif.Props.Avx2Sign35
import Verif.Props.Neon35
import Verif.Props.Shipped35

/-!
# C128: Dilithium3 and Dilithium5 as shipped, on x86_64 with and without AVX2 and on aarch64

`Rust.Machine` is the machine on which a call runs.  The functions with suffix `At` are the functions of pqcrypto-dilithium/src/dilithium3.rs and
dilithium5.rs on that machine; those without are the same functions calling the portable C code (C119).
-/

namespace Verif.Props
open Verif Verif.Dilithium35
open Verif.Dilithium (CSem Shake wrapSem toyH shake256 shake256_len)

variable {md : Mode} {H : Shake}

/-- What a machine needs, beyond what the portable code needs, to verify with a key of matrix seed `rho`: with AVX2, that the surplus streams of C124 give
polynomials; on aarch64, that six blocks are enough for every matrix entry (C121). -/
def Runs35 (H : Shake) (x : Rust.Machine md) (rho : Bytes) : Prop :=
  match x with
  | .x86 e => e.avx2 = true → MatrixStreams md e.C H rho
  | .arm _ => MatrixEnough35 md H rho

private theorem fill_eq {n : Nat} {b : Bytes} (h : b.length = n) : (Dilithium.Rust.filled n b).1 = b := by
  unfold Dilithium.Rust.filled
  simp only
  rw [← h, List.take_length, Nat.sub_self]
  simp

/-- The keys of the aarch64 code, without a condition. -/
theorem keypairN35_rho {C : CSem} {M : Neon.Mach} {coins pk sk : Bytes} (hk : Neon35.keypairN md C H M coins = some (pk, sk)) :
    pk.take 32 = (shake256 H 128 (coins.take 32)).take 32 ∧ sk.take 32 = (shake256 H 128 (coins.take 32)).take 32 ∧ pk.length = md.PKLEN ∧ sk.length = md.SKLEN := by
  obtain ⟨a, b⟩ := H
  have hl : ((shake256 ⟨a, b⟩ 128 (coins.take 32)).take 32).length = 32 := by
    rw [List.length_take, shake256_len]; rfl
  obtain ⟨mat, hm⟩ : ∃ mat, Neon35.matrixExpandN md C ⟨a, b⟩ ((shake256 ⟨a, b⟩ 128 (coins.take 32)).take 32) = some mat := by
    unfold Neon35.keypairN at hk
    generalize shake256 ⟨a, b⟩ 128 (coins.take 32) = sb at hk ⊢
    dsimp only at hk
    rw [Option.bind_eq_bind, Option.bind_eq_some_iff] at hk
    exact ⟨hk.choose, hk.choose_spec.1⟩
  obtain ⟨a', h6', hc'⟩ := Neon35.other_exists hl hm
  rw [← Neon35.keypairN_congr coins (hc' C)] at hk
  have h6 : MatrixEnough35 md ⟨a', b⟩ ((shake256 ⟨a', b⟩ 128 (coins.take 32)).take 32) := (matrixEnough35_iff _).2 h6'
  rw [(C121_same md M).1 coins h6] at hk
  obtain ⟨e1, e2, e3⟩ := keypair35_rho hk
  exact ⟨e1, e2, e3, (C115_sizes _ _ _ hk).2.trans (d35_sk_len md).symm⟩

theorem cryptoSign_indep35 (C C' : CSem) (m sk : Bytes) (h : sk.length = md.SKLEN) : cryptoSign md C H m sk = cryptoSign md C' H m sk := by
  unfold cryptoSign
  rw [(C118_no_undefined_behaviour md C C' H).2.1 m sk (by rw [h, d35_sk_len])]

/-- C128: what key generation and signing return, on every machine, is what they return with the portable code; `keypair_det` always, the others if six blocks
are enough in case the machine is an aarch64 machine. -/
theorem C128_signing (x : Rust.Machine md) (C : CSem) (coins : ByteArr 32) (m : Bytes) (sk : Rust.SecretKey md) :
    Rust.keypairDetAt H x coins = Rust.keypairDet C H md coins ∧
    ((∀ a, x = .arm a → MatrixEnough35 md H ((shake256 H 128 (coins.1.take 32)).take 32)) → ∀ r, Rust.keypairAt H x coins = some r → Rust.keypairDet C H md coins = some r) ∧
    ((∀ a, x = .arm a → MatrixEnough35 md H (sk.arr.1.take 32)) →
      (∀ r, Rust.signAt H x m sk = some r → Rust.sign C H m sk = some r) ∧ ∀ r, Rust.detachedSignAt H x m sk = some r → Rust.detachedSign C H m sk = some r) := by
  have hs := sk.arr.2
  obtain ⟨u1, u2, -, -⟩ := C118_no_undefined_behaviour md x.C C H
  have u2 := u2 m sk.arr.1 (by rw [hs, d35_sk_len])
  have u3 := cryptoSign_indep35 (H := H) x.C C m sk.arr.1 hs
  refine ⟨?_, fun h6 r hr => ?_, fun h6 => ⟨fun r hr => ?_, fun r hr => ?_⟩⟩
  · unfold Rust.keypairDetAt Rust.keypairDet
    rw [u1]
  · unfold Rust.keypairAt at hr
    rw [Option.bind_eq_bind, Option.bind_eq_some_iff] at hr
    obtain ⟨⟨p, s⟩, h, hr⟩ := hr
    have : Dilithium35.keypairDet md C H coins.1 = some (p, s) := by
      rw [← u1]
      cases x with
      | x86 e =>
        dsimp only at h
        split at h
        · exact ((C126_keypair e.kp coins.1 p s).1 h).1
        · exact h
      | arm a => exact ((C121_same md a.M).1 coins.1 (h6 a rfl)) ▸ h
    unfold Rust.keypairDet
    rw [this]
    exact hr
  · unfold Rust.signAt at hr
    rw [Option.bind_eq_bind, Option.bind_eq_some_iff] at hr
    obtain ⟨w, h, hr⟩ := hr
    have : cryptoSign md C H m sk.arr.1 = some w := by
      rw [← u3]
      cases x with
      | x86 e =>
        dsimp only at h
        split at h
        · exact ((C126_sign e.sg m sk.arr.1 w hs).1 h).1
        · exact h
      | arm a => exact ((C121_same md a.M).2.1 m sk.arr.1 (h6 a rfl)).2 ▸ h
    unfold Rust.sign
    rw [this]
    exact hr
  · unfold Rust.detachedSignAt at hr
    rw [Option.bind_eq_bind, Option.bind_eq_some_iff] at hr
    obtain ⟨w, h, hr⟩ := hr
    have : signature md C H m sk.arr.1 = some w := by
      rw [← u2]
      cases x with
      | x86 e =>
        dsimp only at h
        split at h
        · exact ((C126_signature e.sg m sk.arr.1 w hs).1 h).1
        · exact h
      | arm a => exact ((C121_same md a.M).2.1 m sk.arr.1 (h6 a rfl)).1 ▸ h
    unfold Rust.detachedSign
    rw [this]
    exact hr

/-- C128: and a machine that has what it needs signs whenever the portable code does, with the same result. -/
theorem C128_signs (x : Rust.Machine md) (C : CSem) (m : Bytes) (sk : Rust.SecretKey md) (h : Runs35 H x (sk.arr.1.take 32)) :
    Rust.signAt H x m sk = Rust.sign C H m sk ∧ Rust.detachedSignAt H x m sk = Rust.detachedSign C H m sk := by
  have hs := sk.arr.2
  have u2 := (C118_no_undefined_behaviour md x.C C H).2.1 m sk.arr.1 (by rw [hs, d35_sk_len])
  have u3 := cryptoSign_indep35 (H := H) x.C C m sk.arr.1 hs
  unfold Rust.signAt Rust.sign Rust.detachedSignAt Rust.detachedSign
  rw [← u2, ← u3]
  cases x with
  | x86 e =>
    dsimp only [Rust.Machine.C]
    by_cases ha : e.avx2 = true
    · rw [if_pos ha, if_pos ha]
      have e1 : Avx235.cryptoSignA md e.C H e.sg m sk.arr.1 = cryptoSign md e.C H m sk.arr.1 := by
        apply Dilithium.Linked.opt_ext
        · exact fun w hw => ((C126_sign e.sg m sk.arr.1 w hs).1 hw).1
        · exact fun w hw => (C126_sign e.sg m sk.arr.1 w hs).2 ⟨hw, h ha⟩
      have e2 : Avx235.signatureA md e.C H e.sg m sk.arr.1 = signature md e.C H m sk.arr.1 := by
        apply Dilithium.Linked.opt_ext
        · exact fun w hw => ((C126_signature e.sg m sk.arr.1 w hs).1 hw).1
        · exact fun w hw => (C126_signature e.sg m sk.arr.1 w hs).2 ⟨hw, h ha⟩
      rw [e1, e2]
      exact ⟨rfl, rfl⟩
    · rw [if_neg ha, if_neg ha]
      exact ⟨rfl, rfl⟩
  | arm a =>
    dsimp only [Rust.Machine.C]
    obtain ⟨e1, e2⟩ := (C121_same (C := a.C) md a.M).2.1 m sk.arr.1 h
    rw [e1, e2]
    exact ⟨rfl, rfl⟩

/-- Keys made on any machine are those of the portable code. -/
theorem machine35_key (C : CSem) {x : Rust.Machine md} {coins : ByteArr 32} {pk : Rust.PublicKey md} {sk : Rust.SecretKey md}
    (h6 : ∀ a, x = .arm a → MatrixEnough35 md H (pk.arr.1.take 32)) (hk : Rust.keypairAt H x coins = some (pk, sk) ∨ Rust.keypairDetAt H x coins = some (pk, sk)) :
    Dilithium35.keypairDet md C H coins.1 = some (pk.arr.1, sk.arr.1) := by
  have main : Rust.keypairDet C H md coins = some (pk, sk) := by
    obtain ⟨a, b, -⟩ := C128_signing (H := H) x C coins [] sk
    rcases hk with h | h
    · refine b (fun w hw => ?_) _ h
      subst hw
      unfold Rust.keypairAt at h
      rw [Option.bind_eq_bind, Option.bind_eq_some_iff] at h
      obtain ⟨⟨p, s⟩, h, hr⟩ := h
      obtain ⟨e1, -, l1, -⟩ := keypairN35_rho h
      rw [← e1]
      simp only [Option.pure_def, Option.some.injEq, Prod.mk.injEq] at hr
      have := h6 w rfl
      rw [← hr.1] at this
      simpa only [fill_eq l1] using this
    · rw [← a]; exact h
  unfold Rust.keypairDet at main
  rw [Option.bind_eq_bind, Option.bind_eq_some_iff] at main
  obtain ⟨⟨p, s⟩, h, hr⟩ := main
  simp only [Option.pure_def, Option.some.injEq, Prod.mk.injEq] at hr
  obtain ⟨l1, l2⟩ := C115_sizes _ _ _ h
  rw [← d35_pk_len] at l1
  rw [← d35_sk_len] at l2
  rw [h, ← hr.1, ← hr.2]
  simp only [fill_eq l1, fill_eq l2]

/-- C128: keys made on one machine by either function, a signature made on a second machine, verified on a third: it is accepted, and the signed message opens
to the message.  An aarch64 machine among the first two needs six blocks to be enough for the key; the third needs what `Runs35` says. -/
theorem C128_cross_machine (x1 x2 x3 : Rust.Machine md) (coins : ByteArr 32) (pk : Rust.PublicKey md) (sk : Rust.SecretKey md) (m : Bytes)
    (h12 : ∀ a, x1 = .arm a ∨ x2 = .arm a → MatrixEnough35 md H (pk.arr.1.take 32)) (h3 : Runs35 H x3 (pk.arr.1.take 32))
    (hk : Rust.keypairAt H x1 coins = some (pk, sk) ∨ Rust.keypairDetAt H x1 coins = some (pk, sk)) :
    (∀ s, Rust.detachedSignAt H x2 m sk = some s → Rust.verifyDetachedSignatureAt H x3 s m pk = some (.ok ())) ∧
    (∀ sm, Rust.signAt H x2 m sk = some sm → Rust.openSignedAt H x3 sm pk = some (.ok m)) := by
  have key := machine35_key x3.C (fun a e => h12 a (Or.inl e)) hk
  obtain ⟨e1, e2, -⟩ := keypair35_rho key
  obtain ⟨-, -, hsg⟩ := C128_signing (H := H) x2 x3.C coins m sk
  obtain ⟨hs, hd⟩ := hsg fun a e => by rw [e2, ← e1]; exact h12 a (Or.inr e)
  refine ⟨fun s h => ?_, fun sm h => ?_⟩
  · have h := hd s h
    unfold Rust.detachedSign at h
    simp only [Option.pure_def, Option.bind_eq_bind, Option.bind_eq_some_iff, Option.some.injEq] at h
    obtain ⟨sig, hsig, rfl⟩ := h
    obtain ⟨hv, hl⟩ := C115_verify_sign coins.1 pk.arr.1 sk.arr.1 m sig key hsig
    rw [← d35_sig_len] at hl
    unfold Rust.verifyDetachedSignatureAt
    dsimp only
    rw [fill_eq hl, List.take_of_length_le hl.le]
    cases x3 with
    | x86 e =>
      dsimp only [Rust.Machine.C] at *
      by_cases ha : e.avx2 = true
      · rw [if_pos ha, ((C124_honest e.vf coins.1 pk.arr.1 sk.arr.1 m sig [] key (h3 ha)).1 hsig).1]; rfl
      · rw [if_neg ha, hv]; rfl
    | arm a =>
      dsimp only [Rust.Machine.C] at *
      rw [(C121_same md a.M).2.2.1 sig m pk.arr.1 pk.arr.2.ge h3, hv]; rfl
  · have h := hs sm h
    unfold Rust.sign at h
    simp only [Option.pure_def, Option.bind_eq_bind, Option.bind_eq_some_iff, Option.some.injEq] at h
    obtain ⟨w, hw, rfl⟩ := h
    have ho := C115_open_sign coins.1 pk.arr.1 sk.arr.1 m w key hw
    unfold Rust.openSignedAt
    dsimp only
    cases x3 with
    | x86 e =>
      dsimp only [Rust.Machine.C] at *
      by_cases ha : e.avx2 = true
      · rw [if_pos ha, ((C124_honest e.vf coins.1 pk.arr.1 sk.arr.1 m [] w key (h3 ha)).2 hw).1]; rfl
      · rw [if_neg ha, ho]; rfl
    | arm a =>
      dsimp only [Rust.Machine.C] at *
      rw [(C121_same md a.M).2.2.2 w pk.arr.1 pk.arr.2.ge h3, ho]; rfl

/-- C128: aarch64 machines among themselves need no condition when `keypair` makes the keys. -/
theorem C128_aarch64_own (a1 a2 a3 : Rust.ArmEnv) (coins : ByteArr 32) (pk : Rust.PublicKey md) (sk : Rust.SecretKey md) (m : Bytes)
    (hk : Rust.keypairAt H (.arm a1) coins = some (pk, sk)) :
    (∀ s, Rust.detachedSignAt H (.arm a2) m sk = some s → Rust.verifyDetachedSignatureAt H (.arm a3) s m pk = some (.ok ())) ∧
    (∀ sm, Rust.signAt H (.arm a2) m sk = some sm → Rust.openSignedAt H (.arm a3) sm pk = some (.ok m)) := by
  have key : Neon35.keypairN md a1.C H a1.M coins.1 = some (pk.arr.1, sk.arr.1) := by
    unfold Rust.keypairAt at hk
    rw [Option.bind_eq_bind, Option.bind_eq_some_iff] at hk
    obtain ⟨⟨p, s⟩, h, hr⟩ := hk
    obtain ⟨-, -, l1, l2⟩ := keypairN35_rho h
    simp only [Option.pure_def, Option.some.injEq, Prod.mk.injEq] at hr
    rw [← hr.1, ← hr.2]
    simpa only [fill_eq l1, fill_eq l2] using h
  obtain ⟨n1, n2, -⟩ := C121_no_undefined_behaviour md a1.C a3.C H a1.M a1.M
  rw [n1] at key
  obtain ⟨-, n2', -⟩ := C121_no_undefined_behaviour md a2.C a3.C H a2.M a2.M
  obtain ⟨q1, q2⟩ := n2' m sk.arr.1 sk.arr.2.ge
  obtain ⟨v, o⟩ := C121_own md a1.M a2.M a3.M coins.1 pk.arr.1 sk.arr.1 m key
  refine ⟨fun s h => ?_, fun sm h => ?_⟩
  · unfold Rust.detachedSignAt at h
    dsimp only at h
    simp only [Option.pure_def, Option.bind_eq_bind, Option.bind_eq_some_iff, Option.some.injEq] at h
    obtain ⟨sig, hsig, rfl⟩ := h
    rw [q1] at hsig
    have hv := v sig hsig
    have hl : sig.length = md.SIGLEN := by
      unfold Neon35.verifyN at hv
      by_contra hn
      rw [if_pos hn] at hv
      cases hv
    unfold Rust.verifyDetachedSignatureAt
    dsimp only
    rw [fill_eq hl, List.take_of_length_le hl.le, hv]
    rfl
  · unfold Rust.signAt at h
    dsimp only at h
    simp only [Option.pure_def, Option.bind_eq_bind, Option.bind_eq_some_iff, Option.some.injEq] at h
    obtain ⟨w, hw, rfl⟩ := h
    rw [q2] at hw
    unfold Rust.openSignedAt
    dsimp only
    rw [o w hw]
    rfl

/-- C128: on every machine, verification of a parsed signature is the C verification of exactly the given bytes by the code that the machine runs, and a
signature shorter than a signature is rejected. -/
theorem C128_verify_exact (x : Rust.Machine md) (b m : Bytes) (pk : Rust.PublicKey md) (s : Rust.DetachedSignature md) (hs : Rust.DetachedSignature.fromBytes md b = .ok s) :
    Rust.verifyDetachedSignatureAt H x s m pk = Option.map (fun ok : Bool => if ok then .ok () else .err .invalidSignature)
      (match x with
        | .x86 e => if e.avx2 then Avx235.verifyA md e.C H e.vf b m pk.asBytes else verify md e.C H b m pk.asBytes
        | .arm a => Neon35.verifyN md a.C H a.M b m pk.asBytes) ∧
    (b.length < Spec.sigBytes md → Rust.verifyDetachedSignatureAt H x s m pk = some (.err .invalidSignature)) := by
  unfold Rust.DetachedSignature.fromBytes at hs
  by_cases hl : b.length > md.SIGLEN
  · rw [if_pos hl] at hs; cases hs
  rw [if_neg hl] at hs
  cases hs
  have h2 : b.length ≤ md.SIGLEN := Nat.not_lt.mp hl
  have : (Dilithium.Rust.filled md.SIGLEN b).1.take b.length = b := by
    simp only [Dilithium.Rust.filled]
    rw [List.take_of_length_le h2, List.take_left']
    rfl
  have main : ∀ o : Option Bool, (do let ok ← o; return Dilithium.Rust.ofRc (if ok then 0 else -1) () : Option (Res Dilithium.Rust.VerificationError Unit)) =
      Option.map (fun ok : Bool => if ok then .ok () else .err .invalidSignature) o := by
    rintro (_ | _ | _) <;> rfl
  unfold Rust.verifyDetachedSignatureAt Rust.PublicKey.asBytes
  simp only [this]
  refine ⟨main _, fun hlt => ?_⟩
  have hne : b.length ≠ md.SIGLEN := by rw [d35_sig_len]; omega
  rw [main]
  cases x with
  | x86 e =>
    dsimp only
    unfold Avx235.verifyA verify
    rw [if_pos hne, if_pos hne]
    simp
  | arm a =>
    dsimp only
    unfold Neon35.verifyN
    rw [if_pos hne]
    rfl

/-- Uninitialised memory that happens to be zero. -/
private def noJunk : Avx2.Junk := ⟨fun _ => 0, fun _ => 0, ⟨fun _ _ => 0, fun _ => 0⟩⟩

/-- C128: whether a signature is accepted can depend on the machine: for either parameter set there are (with a hash function) a public key and a signature on
the empty message that every x86_64 machine with AVX2 accepts and every other machine rejects. -/
theorem C128_acceptance_depends_on_machine (md : Mode) : ∃ (H : Shake) (pkb sigb : Bytes) (pk : Rust.PublicKey md) (s : Rust.DetachedSignature md),
    Rust.PublicKey.fromBytes md pkb = .ok pk ∧ Rust.DetachedSignature.fromBytes md sigb = .ok s ∧
    (∀ e : Rust.X86Env md, Rust.verifyDetachedSignatureAt H (.x86 e) s [] pk = some (if e.avx2 then .ok () else .err .invalidSignature)) ∧
    ∀ a : Rust.ArmEnv, Rust.verifyDetachedSignatureAt H (.arm a) s [] pk = some (.err .invalidSignature) := by
  let rho : Bytes := List.replicate 32 7
  let pkb := packPk md rho fun _ _ => 0
  let c := shake256 toyH md.CTILDE (shake256 toyH 64 (shake256 toyH 64 pkb ++ []) ++
    vecPackW1 fun k i => Dilithium35.Spec.highBits (Dilithium35.Spec.wOf (toyA md) (fun _ _ => 524288) k i))
  let sigb := packSig md wrapSem c (fun _ _ => 524288) fun _ _ => 0
  have hpk : pkb.length = md.PKLEN := packPk_len _ _ List.length_replicate
  have hsig : sigb.length = md.SIGLEN := packSig_len _ _ _ (shake256_len _ _)
  obtain ⟨cp, hcp⟩ := toy_challenge (md := md) c
  have hβ : 0 ≤ md.BETA := (beta_le md).1
  have key : ∀ (C : CSem) (J : Avx235.VerifyJunk md), Avx235.verifyA md C toyH J sigb [] pkb = some true ∧ verify md C toyH sigb [] pkb = some false := fun C J => by
    have hm : matrixExpand md C toyH rho = some fun _ _ _ => 1 := by rw [matrixExpand_indep C wrapSem]; exact toy_mat _
    have hst : MatrixStreams md C toyH rho := by
      refine ⟨by rw [hm]; simp, fun _ => ?_⟩
      rw [Dilithium.polyUniform_indep C wrapSem, Dilithium.polyUniform_indep C wrapSem, Dilithium.toy_uniform, Dilithium.toy_uniform]
      simp
    have h := C125_long_response J [] rho c pkb (fun _ _ => 524288) cp _ (toyA md) List.length_replicate hst hm toyA_ntt
      (fun _ _ => by decide) rfl rfl (by rw [polyChallenge_indep C wrapSem]; exact hcp) ⟨⟨0, (k_pos md).2⟩, 0, by rw [show |(524288 : Int)| = 524288 from rfl]; omega⟩
    rwa [packSig_indep C wrapSem c _ _ fun k i => by decide] at h
  obtain ⟨s, hs, -⟩ := (C119_signature_bytes (md := md) sigb).1 (by rw [hsig, d35_sig_len])
  refine ⟨toyH, pkb, sigb, ⟨⟨pkb, hpk⟩⟩, s, ((C119_key_bytes _).1 _).mpr rfl, hs, fun e => ?_, fun a => ?_⟩
  · rw [(C128_verify_exact (H := toyH) (.x86 e) sigb [] ⟨⟨pkb, hpk⟩⟩ s hs).1]
    dsimp only [Rust.PublicKey.asBytes]
    by_cases ha : e.avx2 = true
    · rw [if_pos ha, (key e.C e.vf).1, ha]; rfl
    · rw [if_neg ha, (key e.C e.vf).2, if_neg ha]; rfl
  · rw [(C128_verify_exact (H := toyH) (.arm a) sigb [] ⟨⟨pkb, hpk⟩⟩ s hs).1]
    dsimp only [Rust.PublicKey.asBytes]
    have hv := (key a.C ⟨noJunk, fun _ => noJunk, fun _ => 0, fun _ => ⟨fun _ _ _ => 0, fun _ _ _ => noJunk⟩, fun _ _ => noJunk⟩).2
    rw [(C121_same md a.M).2.2.1 sigb [] pkb hpk.ge (toy_enough35 md _), hv]; rfl

/-- Non-vacuity: with the toy hash every machine makes keys from every seed, and every machine signs with them what every machine accepts. -/
example (x1 x2 x3 : Rust.Machine md) (coins : ByteArr 32) (m : Bytes) : ∃ pk sk s, Rust.keypairDetAt toyH x1 coins = some (pk, sk) ∧
    Rust.detachedSignAt toyH x2 m sk = some s ∧ Rust.verifyDetachedSignatureAt toyH x3 s m pk = some (.ok ()) := by
  have hr : ∀ (x : Rust.Machine md) rho, Runs35 toyH x rho := fun x rho => by
    cases x with
    | x86 e =>
      intro _
      have hm : matrixExpand md e.C toyH rho = some fun _ _ _ => 1 := by rw [matrixExpand_indep e.C wrapSem]; exact toy_mat _
      refine ⟨by rw [hm]; simp, fun _ => ?_⟩
      rw [Dilithium.polyUniform_indep e.C wrapSem, Dilithium.polyUniform_indep e.C wrapSem, Dilithium.toy_uniform, Dilithium.toy_uniform]
      simp
    | arm a => exact toy_enough35 md rho
  obtain ⟨pk0, sk0, hk⟩ := toy_keypair (md := md) coins.1
  obtain ⟨sig, hs⟩ := toy_signs coins.1 pk0 sk0 m hk
  have l2 : sk0.length = md.SKLEN := (C115_sizes _ _ _ hk).2.trans (d35_sk_len md).symm
  have h1 : Rust.keypairDetAt toyH x1 coins = some (⟨Dilithium.Rust.filled md.PKLEN pk0⟩, ⟨Dilithium.Rust.filled md.SKLEN sk0⟩) := by
    rw [(C128_signing x1 wrapSem coins m ⟨Dilithium.Rust.filled md.SKLEN sk0⟩).1]
    unfold Rust.keypairDet; rw [hk]; rfl
  have h2 : Rust.detachedSignAt toyH x2 m (⟨Dilithium.Rust.filled md.SKLEN sk0⟩ : Rust.SecretKey md) = some ⟨Dilithium.Rust.filled md.SIGLEN sig, md.SIGLEN⟩ := by
    rw [(C128_signs x2 wrapSem m _ (hr _ _)).2]
    unfold Rust.detachedSign; rw [fill_eq l2, hs]; rfl
  exact ⟨_, _, _, h1, h2, (C128_cross_machine x1 x2 x3 coins _ _ m (fun _ _ => toy_enough35 md _) (hr _ _) (Or.inr h1)).1 _ h2⟩

end Verif.Props
