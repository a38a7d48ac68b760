import Verif.Props.TlsSignOps
import Verif.Props.RsaExamples
import Verif.Props.EcdsaExamples

/-!
Cases for the theorems of C54.
-/
namespace Verif.Props
open Verif Verif.TlsSign Verif.Spec.TlsScheme Verif.Asn1

/-- The reference implementations of the assembly routines. -/
noncomputable def tlsEnv : Env where
  rsa := Bignum.ref
  p256 := Ec.refAsm 4 Spec.Nist.p256.p Spec.Nist.p256.n
  p384 := Ec.refAsm 6 Spec.Nist.p384.p Spec.Nist.p384.n
  ed := edAsm
  fuel := 64

theorem tlsEnv_ok : EnvOk tlsEnv := ⟨Bignum.ref_ok, refP256, refP384, edAsm_ok⟩

section
open Verif.RsaExample Verif.Rsa

/-- An RSA key is loaded, chooses the offered scheme, and signs any message; the valid signature `s` is what it returns if it is large enough. -/
example (msg : Bytes) (hm : 64 + msg.length < 2 ^ 61) : ∃ k out,
    loadPrivateKey tlsEnv (.Pkcs1 (Spec.Rsa.privateKeyDer n e d p q dp dq qInv)) = .ok (.rsa k) ∧
    Key.chooseScheme [.ED25519, .RSA_PKCS1_SHA256] (.rsa k) = some (.rsa k .RSA_PKCS1_SHA256) ∧
    Signer.sign tlsEnv ones msg (.rsa k .RSA_PKCS1_SHA256) = some (.ok out) ∧ out.length = 256 ∧
    ∃ s, Alg.Valid (rsaPublic k) msg (toBE 256 s) (.rsaPkcs1 .sha256) ∧
      (Alg.Valid (rsaPublic k) msg out (.rsaPkcs1 .sha256) ↔ 2 ^ 1984 ≤ s) := by
  obtain ⟨k, k1, hk⟩ := conventional tlsEnv_ok.rsa
  have h1 : k.pub.modulusLenBytes ≤ 256 := (lenBytes_le k.pub.n 256).2 (by rw [hk.holds.pub.n]; decide +kernel)
  have h2 : 256 ≤ k.pub.modulusLenBytes := hk.ok.pub.min
  have h3 : k.pub.modulusLenBytes = 256 := by omega
  obtain ⟨sig, hs⟩ := C11_pkcs1_signs_partial tlsEnv_ok.rsa hk .sha256 .sha256 msg (by omega) 256 h1
  have hr : ones.Fills := by intro i n b h; cases h; simp
  have ho : Signer.sign tlsEnv ones msg (.rsa k .RSA_PKCS1_SHA256) = some (.ok (sig ++ List.replicate (256 - sig.length) 0#8)) := by
    show some (wholeBuffer k.pub.modulusLenBytes (signPkcs1 tlsEnv.rsa Hmac.sha256 Pkcs1.DIGESTINFO_SHA256 k k.pub.modulusLenBytes msg)) = _
    rw [h3, hs]; rfl
  obtain ⟨l, -⟩ := C54_sign_rsa_partial tlsEnv_ok hk.ok hk.canonical hk.octets ones hr .RSA_PKCS1_SHA256 ⟨_, rfl, trivial⟩ msg _ hm ho
  obtain ⟨s, s1, s2⟩ := C54_rsa_short tlsEnv_ok hk hk.octets ones .RSA_PKCS1_SHA256 .sha256 rfl msg _ hm ho
  rw [h3] at l s1 s2
  exact ⟨k, _, ((C54_load_pkcs1 tlsEnv_ok _ _).1).2 ⟨k, rfl, k1⟩, rfl, ho, l, s, s1, s2⟩

/-- Its public key is covered by the claim about verification. -/
example : Covered (Spec.Rsa.publicKeyDer n e) (.rsaPss .sha256) := by
  intro n' e' k h1 h2
  obtain ⟨rfl, rfl⟩ := publicKeyDer_inj h1 limits.pub
  refine ⟨limits.pub, ?_⟩
  have h3 : Octets n 256 := by constructor <;> decide +kernel
  have hk : 1 ≤ k := by
    rcases Nat.eq_zero_or_pos k with h0 | h0
    · subst h0
      have h4 : n < 1 := h2.2
      exact absurd h4 (by decide +kernel)
    · exact h0
  rw [octets_unique h2 h3 hk (by omega)]
end

section
open Verif.Spec.Nist Verif.Ecdsa Verif.Ec Verif.Spec.Der

/-- An exported P-256 key is loaded as one. -/
example : ∃ der, loadPrivateKey tlsEnv (.Pkcs8 der) = .ok (.p256 5) := by
  obtain ⟨out, -, h⟩ := exExport
  exact ⟨out, ((C54_load_pkcs8 tlsEnv_ok out (.p256 5)).1).2 h⟩

/-- A bare SEC 1 document with 48 octets is loaded as a P-256 key. -/
example : ∃ d : Ec.Scalar 4, d.toNat = 5 ∧ loadPrivateKey tlsEnv (.Sec1 (sec1Der (toBE 48 5) none none)) = .ok (.p256 d) := by
  obtain ⟨d, h1, h2⟩ := C54_load_sec1_bare tlsEnv_ok (toBE 48 5) (by simp) (by decide +kernel) (by decide +kernel)
  exact ⟨d, by rw [h1]; decide +kernel, h2⟩
end

/-- An Ed25519 key signs. -/
example (rng : RandomSource) (msg : Bytes) (hm : 64 + msg.length < 2 ^ 61) : ∃ key out,
    Key.chooseScheme [.RSA_PSS_SHA256, .ED25519] (.ed25519 key) = some (.ed25519 key) ∧
    Signer.sign tlsEnv rng msg (.ed25519 key) = some (.ok out) ∧
    Alg.Valid (Spec.Ed25519.publicKey (List.replicate 32 7#8)) msg out .ed25519 := by
  obtain ⟨key, h1, -⟩ := (C38_signing_key tlsEnv_ok.ed (List.replicate 32 7#8)).2 (by simp)
  obtain ⟨sig, hs⟩ : ∃ sig, Ed25519.sign tlsEnv.ed key msg = .ok sig :=
    ⟨_, by rw [C38_sign tlsEnv_ok.ed _ key h1 msg, if_pos (by omega)]⟩
  have ho : Signer.sign tlsEnv rng msg (.ed25519 key) = some (.ok sig) := by rw [Signer.sign, hs]; rfl
  obtain ⟨a, ha, hv⟩ := C54_sign_ed25519 tlsEnv_ok rng _ key h1 msg sig hm ho
  cases ha
  exact ⟨key, sig, rfl, ho, hv⟩

end Verif.Props
