import Verif.Latke.AuthEnc

/-! # C01–C04: authenticated encryption -/

namespace Verif.Props
open Verif Verif.Latke

/-- C01: decrypting what was encrypted under the same key gives the message back. -/
theorem C01_authenc_roundtrip (P : SymPrims) (nonce : ByteArr 12) (key : AuthEncKey) (msg : Bytes) :
    authDecrypt P key (authEncrypt P nonce key msg) = .ok msg := by
  have hlen : (xorBytes msg (P.keystream (key.1.take 32) nonce.1 msg.length).1).length = msg.length := by
    rw [length_xorBytes, (P.keystream _ _ _).2]; simp
  unfold authDecrypt authEncrypt
  simp only
  rw [splitEnd?_append (n := TAGLEN) (P.hmac _ _).2]
  simp only
  rw [splitEnd?_append nonce.2]
  simp only [if_true]
  rw [hlen, xorBytes_self_cancel _ _ (P.keystream _ _ _).2.symm]

/-- C02: the sealed message is exactly 44 bytes longer than the plaintext. -/
theorem C02_authenc_length (P : SymPrims) (nonce : ByteArr 12) (key : AuthEncKey) (msg : Bytes) :
    (authEncrypt P nonce key msg).length = msg.length + 44 := by
  unfold authEncrypt
  simp only [List.length_append, length_xorBytes, (P.keystream _ _ _).2, (P.hmac _ _).2, nonce.2]
  omega

/-- C03: an accepted byte string is `body ‖ tag` with `tag` the HMAC of the whole body under the MAC half of the key. -/
theorem C03_accept_implies_valid_tag (P : SymPrims) (key : AuthEncKey) (sealed pt : Bytes)
    (h : authDecrypt P key sealed = .ok pt) :
    ∃ body tag, sealed = body ++ tag ∧ tag = (P.hmac (key.1.drop 32) body).1 ∧
      body.length = pt.length + 12 := by
  unfold authDecrypt at h
  simp only at h
  split at h
  · simp at h
  · rename_i body mac hs
    split at h
    · simp at h
    · rename_i ct nonce hn
      split at h
      · rename_i hm
        obtain ⟨h1, _⟩ := splitEnd?_eq_some hs
        obtain ⟨h3, h4⟩ := splitEnd?_eq_some hn
        refine ⟨body, mac, h1, hm.symm, ?_⟩
        simp only [Res.ok.injEq] at h
        rw [← h, length_xorBytes, (P.keystream _ _ _).2, h3, List.length_append, h4]
        simp
      · simp at h

/-- C03: replacing only the 32-byte tag of any body by a different tag is always rejected with the MAC error. -/
theorem C03_wrong_tag_rejected (P : SymPrims) (key : AuthEncKey) (body tag : Bytes)
    (hb : 12 ≤ body.length) (ht : tag.length = 32) (hne : tag ≠ (P.hmac (key.1.drop 32) body).1) :
    authDecrypt P key (body ++ tag) = .err .mk := by
  unfold authDecrypt
  rw [splitEnd?_append (n := TAGLEN) ht]
  simp only [splitEnd?, if_pos hb]
  rw [if_neg (fun h => hne h.symm)]

/-- C03: if an accepted byte string differs from an honestly sealed one under the same key, it carries a valid tag on
a body different from the honest body — a fresh MAC forgery (never a re-tagging of the honest body). -/
theorem C03_tamper_accept_is_forgery (P : SymPrims) (nonce : ByteArr 12) (key : AuthEncKey)
    (msg sealed' pt : Bytes) (hne : sealed' ≠ authEncrypt P nonce key msg)
    (h : authDecrypt P key sealed' = .ok pt) :
    ∃ body tag body' tag', authEncrypt P nonce key msg = body ++ tag ∧ tag.length = 32 ∧
      sealed' = body' ++ tag' ∧ tag' = (P.hmac (key.1.drop 32) body').1 ∧ body' ≠ body := by
  obtain ⟨body', tag', h1, h2, h3⟩ := C03_accept_implies_valid_tag P key sealed' pt h
  obtain ⟨body, tag, g1, g2, g3⟩ := C03_accept_implies_valid_tag P key _ msg (C01_authenc_roundtrip P nonce key msg)
  refine ⟨body, tag, body', tag', g1, ?_, h1, h2, ?_⟩
  · rw [g2]; exact (P.hmac _ _).2
  · rintro rfl
    exact hne (by rw [h1, g1, h2, g2])

/-- C04: decryption panics exactly on inputs shorter than 44 bytes. -/
theorem C04_decrypt_panics_iff_short (P : SymPrims) (key : AuthEncKey) (sealed : Bytes) :
    authDecrypt P key sealed = .panic ↔ sealed.length < 44 := by
  unfold authDecrypt splitEnd? TAGLEN
  by_cases h1 : 32 ≤ sealed.length
  · simp only [if_pos h1, List.length_take]
    by_cases h2 : 12 ≤ min (sealed.length - 32) sealed.length
    · simp only [if_pos h2]
      have : ¬ sealed.length < 44 := by omega
      simp only [this, iff_false]
      split <;> simp
    · simp only [if_neg h2, true_iff]
      omega
  · simp only [if_neg h1, true_iff]
    omega

/-- Non-vacuity: with the toy primitives a concrete sealed message is accepted, a re-tagged one is rejected and
a 43-byte input panics. -/
example :
    let key : AuthEncKey := ⟨List.replicate 64 3, by simp⟩
    let nonce : ByteArr 12 := ⟨List.replicate 12 9, by simp⟩
    let s := authEncrypt toyPrims nonce key [1, 2, 3]
    s.length = 47 ∧ authDecrypt toyPrims key s = .ok [1, 2, 3] ∧
    authDecrypt toyPrims key (s.take 15 ++ List.replicate 32 0) = .err .mk ∧
    authDecrypt toyPrims key (s.take 43) = .panic := by
  decide +kernel

end Verif.Props
