import Verif.Model.Drop
import Verif.Props.RsaGen
import Verif.Props.RsaExamples
import Verif.Props.Ed25519
import Verif.Props.Sha2

/-!
C56: what the storage of a secret holds after its drop.  Memory is a list of bytes; the fields of a value are listed with all
their bytes, including the words of a number that are not in use.
-/
namespace Verif.Props
open Verif Verif.Drop Verif.Bignum Verif.Rsa Verif.RsaGen

/-- Each field occupies as many bytes as before and holds zeros only. -/
def Wiped (before after : List Bytes) : Prop := after = before.map fun f => List.replicate f.length 0#8

/-- The memory of an array. -/
def mem {w : Nat} (v : List (BitVec w)) : Bytes := v.flatMap fun x => toLE (w / 8) x.toNat

/-- The memory of a number: its `N` words and their count. -/
def posIntMem {N : Nat} (p : PosInt N) : Bytes := mem p.words ++ toLE 8 p.used

/-- The memory of the secret fields of an RSA key. -/
def rsaMem (k : PrivateKey) : List Bytes :=
  [posIntMem k.p, posIntMem k.q, posIntMem k.d, posIntMem k.dp, posIntMem k.dq, posIntMem k.iqmp, posIntMem k.iqmpMont,
    posIntMem k.pMontifier, posIntMem k.qMontifier, mem [k.p0], mem [k.q0]]

/-- The memory of an Ed25519 signing key. -/
def ed25519Mem (k : Ed25519.SigningKey) : List Bytes :=
  [k.seed, mem [k.s], k.pfx, k.verifyingKey.bytes, mem [k.verifyingKey.point.x, k.verifyingKey.point.y]]

/-- The memory of the secret fields of a decapsulation key. -/
def decapMem (k : MlKem.DecapKey) : List Bytes := [k.dkPke, k.z]

theorem zeroBytes_all (stride : Nat) (v : Bytes) {n : Nat} (h : n = v.length) : Ct.zeroBytes stride n v = List.replicate n 0#8 := by
  rw [C53_zero_bytes stride n v (by omega), List.drop_eq_nil_of_le (by omega), List.append_nil]

theorem toLE_zero (n : Nat) : toLE n 0 = List.replicate n 0#8 := by
  induction n with
  | zero => rfl
  | succ n ih => rw [toLE, Nat.zero_div, ih, List.replicate_succ]

theorem leNat_zeros (n : Nat) : leNat (List.replicate n 0#8) = 0 := by
  rw [← toLE_zero, leNat_toLE, Nat.zero_mod]

theorem zeroiseValue_zero (stride : Nat) {w : Nat} (v : BitVec w) : zeroiseValue stride v = 0 := by
  rw [zeroiseValue, zeroBytes_all stride _ (by simp [bytesOf]), ofBytes, leNat_zeros]; rfl

theorem mem_length {w : Nat} (v : List (BitVec w)) : (mem v).length = v.length * (w / 8) := by
  induction v with
  | nil => simp [mem]
  | cons x xs ih => rw [mem, List.flatMap_cons, List.length_append, toLE_length, ← mem, ih, List.length_cons]; ring

theorem zeroise_zero (stride : Nat) {w : Nat} (v : List (BitVec w)) : zeroise stride v = List.replicate v.length 0 := by
  rw [zeroise]
  have hm : (v.flatMap bytesOf).length = v.length * (w / 8) := mem_length v
  rw [zeroBytes_all stride _ hm.symm]
  apply List.ext_getElem
  · simp
  · intro i h1 h2
    simp only [List.getElem_map, List.getElem_range, List.getElem_replicate, List.drop_replicate, List.take_replicate, ofBytes, leNat_zeros]
    rfl

theorem mem_zeros (w n : Nat) : mem (List.replicate n (0 : BitVec w)) = List.replicate (n * (w / 8)) 0#8 := by
  induction n with
  | zero => simp [mem]
  | succ n ih =>
    rw [List.replicate_succ, mem, List.flatMap_cons, ← mem, ih, show (0 : BitVec w).toNat = 0 by simp, toLE_zero, List.replicate_append_replicate]
    congr 1; ring

/-- The drop of a number clears all its words, because those beyond `used` are zero in every number of the library. -/
theorem posInt_wiped (stride : Nat) {N : Nat} {p : PosInt N} (h : p.Inv) :
    posIntMem (secretPosInt stride p) = List.replicate (posIntMem p).length 0#8 := by
  have h2 : zeroise stride (p.words.take p.used) ++ p.words.drop p.used = List.replicate p.words.length 0#64 := by
    rw [zeroise_zero, h.zero, List.length_take, h.length, Nat.min_eq_left h.used]
    rw [show (0 : BitVec 64) = 0#64 from rfl, List.replicate_append_replicate, Nat.add_sub_cancel' h.used]
  rw [posIntMem, secretPosInt]
  dsimp only
  rw [h2, zeroiseValue_zero, show (0#64) = (0 : BitVec 64) from rfl, mem_zeros 64, show (0 : BitVec 64).toNat = 0 from rfl, toLE_zero, List.replicate_append_replicate, posIntMem,
    List.length_append, mem_length, toLE_length]

theorem bytes_wiped (stride : Nat) (v : Bytes) : zeroiseBytes stride v = List.replicate v.length 0#8 := zeroBytes_all stride v rfl

theorem rsa_wiped (stride : Nat) {A : Bignum.Asm} (hA : A.Ok) {k : PrivateKey} (hk : k.Ok A) : Wiped (rsaMem k) (rsaMem (rsaPrivateKey stride k)) := by
  have hi : k.iqmpMont.Inv := by
    rw [hk.iqmpMont]
    refine PosInt.ofWords_inv ?_
    rw [hA.montmul_length, PosInt.length_asWords hk.ctxP.inv]
    exact hk.ctxP.inv.used
  simp only [Wiped, rsaMem, rsaPrivateKey, List.map_cons, List.map_nil, posInt_wiped stride hk.ctxP.inv, posInt_wiped stride hk.ctxQ.inv,
    posInt_wiped stride hk.d, posInt_wiped stride hk.dp, posInt_wiped stride hk.dq, posInt_wiped stride hk.iqmp, posInt_wiped stride hi,
    posInt_wiped stride hk.montP.inv, posInt_wiped stride hk.montQ.inv, zeroiseValue_zero, mem_length]
  have e : mem [(0 : Word)] = List.replicate 8 0#8 := mem_zeros 64 1
  simp only [e]
  rfl

/-- **C56** An imported RSA signing key leaves nothing of its secret numbers behind when dropped. -/
theorem C56_rsa_imported_partial (stride : Nat) {A : Bignum.Asm} (hA : A.Ok) (der : Bytes) (k : PrivateKey)
    (h : signingFromPkcs1 A der = .ok k ∨ signingFromPkcs8 A der = .ok k) : Wiped (rsaMem k) (rsaMem (rsaPrivateKey stride k)) := by
  have main : ∀ b, signingFromPkcs1 A b = .ok k → k.Ok A := by
    intro b hb
    rcases C15_import_private hA b with ⟨k', v, -, -, -, -, k1, k2, -⟩ | ⟨-, err, h'⟩
    · rw [hb] at k1; cases k1; exact k2
    · rw [hb] at h'; cases h'
  rcases h with h | h
  · exact rsa_wiped stride hA (main _ h)
  · obtain ⟨inner, -, -, -, -, h⟩ := (C15_import_pkcs8 der k).1 h
    exact rsa_wiped stride hA (main _ h)

/-- **C56** So does a generated key, for the sizes whose private exponent is covered by C14. -/
theorem C56_rsa_generated_partial (stride : Nat) {A : Bignum.Asm} (hA : A.Ok) {size : KeySize} (hs : size ≠ .Rsa8192) {cr kr : RandomSource}
    (hc : cr.Fills) (hk : kr.Fills) {fuel n : Nat} {s s' : Calls} {k : PrivateKey}
    (h : generateKey A fuel size cr kr n s = some (.ok k, s')) : Wiped (rsaMem k) (rsaMem (rsaPrivateKey stride k)) := by
  obtain ⟨-, -, a, b, -, -, -, -, -, -, -, -, hx⟩ := (generateKey_ok hA hc hk _ _ _ _ h).ok k rfl
  exact rsa_wiped stride hA (hx hs).1

/-- **C56** A P-256 or P-384 private key is cleared when dropped. -/
theorem C56_nist_partial (stride : Nat) {N : Nat} (d : Ec.Scalar N) : Wiped [mem [d]] [mem [scalar stride d]] := by
  rw [Wiped, scalar, zeroiseValue_zero]
  have e : mem [(0 : BitVec (64 * N))] = _ := mem_zeros (64 * N) 1
  rw [e, List.map_cons, List.map_nil, mem_length]; rfl

/-- **C56** An X25519 private key is cleared when dropped. -/
theorem C56_x25519_partial (stride : Nat) (k : X25519.PrivateKey) : Wiped [mem [k.words]] [mem [(x25519PrivateKey stride k).words]] :=
  C56_nist_partial stride (N := 4) k.words

/-- **C56** An Ed25519 signing key, with its public half, is cleared when dropped. -/
theorem C56_ed25519_partial (stride : Nat) (k : Ed25519.SigningKey) : Wiped (ed25519Mem k) (ed25519Mem (ed25519SigningKey stride k)) := by
  have e1 : mem [(0 : Ec.Elt 4)] = List.replicate 32 0#8 := mem_zeros 256 1
  have e2 : mem [(0 : Ec.Elt 4), 0] = List.replicate 64 0#8 := mem_zeros 256 2
  simp only [Wiped, ed25519Mem, ed25519SigningKey, List.map_cons, List.map_nil, bytes_wiped, zeroiseValue_zero, mem_length, e1, e2]
  rfl

/-- **C56** The secret fields of an ML-KEM decapsulation key are cleared when dropped, the public ones stay. -/
theorem C56_mlkem_partial (stride : Nat) (k : MlKem.DecapKey) :
    Wiped (decapMem k) (decapMem (decapKey stride k)) ∧ (decapKey stride k).ekPke = k.ekPke ∧ (decapKey stride k).hEk = k.hEk :=
  ⟨by simp only [Wiped, decapMem, decapKey, List.map_cons, List.map_nil, bytes_wiped], rfl, rfl⟩

/-- **C56** Shared secrets, ChaCha20-Poly1305 and XChaCha20-Poly1305 keys, ML-KEM messages and the buffer for the encoded numbers
of an RSA key are cleared when dropped. -/
theorem C56_bytes_partial (stride : Nat) (b : Bytes) : Wiped [b] [byteArray stride b] := by
  simp only [Wiped, byteArray, bytes_wiped, List.map_cons, List.map_nil]

/-- **C56** The round keys and the powers of the hash key of an AES-GCM key are cleared when dropped. -/
theorem C56_aes_gcm_partial (stride : Nat) (k : AesX86.AesKey) (t : GhashX86.Table) :
    Wiped [mem k.roundKeys, mem (tableMem t)] [mem (aesKey stride k).roundKeys, mem (ghashTable stride t)] := by
  simp only [Wiped, aesKey, ghashTable, zeroise_zero, List.map_cons, List.map_nil, mem_length, mem_zeros]

/-- The words above `used` matter: clearing a number that has a stray one would leave it behind. -/
example : ¬ Wiped [posIntMem (⟨[1#64, 2#64], 1⟩ : PosInt 2)] [posIntMem (secretPosInt 32 (⟨[1#64, 2#64], 1⟩ : PosInt 2))] := by
  rw [Wiped, posIntMem, secretPosInt]
  dsimp only
  rw [zeroise_zero, zeroiseValue_zero]
  decide

/-- A 2048-bit key that is imported and dropped. -/
example : ∃ k, signingFromPkcs1 ref (Spec.Rsa.privateKeyDer RsaExample.n RsaExample.e RsaExample.d RsaExample.p RsaExample.q RsaExample.dp
    RsaExample.dq RsaExample.qInv) = .ok k ∧ Wiped (rsaMem k) (rsaMem (rsaPrivateKey 32 k)) := by
  obtain ⟨k, h, -⟩ := RsaExample.accepted ref_ok
  exact ⟨k, h, C56_rsa_imported_partial 32 ref_ok _ k (.inl h)⟩

end Verif.Props
