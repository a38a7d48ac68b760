import Verif.Proof.Pratt
import Mathlib.NumberTheory.LucasPrimality
import Mathlib.Tactic.NormNum.Prime
import Verif.Props.RsaOps

/-!
A consistent RSA key with 1024-bit primes, to show that the theorems about RSA keys have cases.  The primes are of the form
`k * 2^m + 1`, so that their primality can be checked by Lucas's test.
-/
namespace Verif.RsaExample
open Verif Verif.Rsa Verif.PosInt Verif.Bignum Verif.Pratt

theorem mem_of {r s : Nat} (hr : r.Prime) (hs : s.Prime) {k : Nat} (h : r ∣ s ^ k) : r = s :=
  (Nat.prime_dvd_prime_iff_eq hr hs).1 (hr.dvd_of_dvd_pow h)

/-- The larger prime. -/
def p : Nat := 3 * 5 ^ 2 * 7 ^ 8 * 2 ^ 995 + 1
/-- The smaller prime. -/
def q : Nat := 5 ^ 3 * 7 ^ 12 * 2 ^ 983 + 1
def e : Nat := 65537
def n : Nat := p * q
def d : Nat := 893073858234209485821818030710238437770341082793675266896398349830716418642874638518301793532343168540147925951724566078754464970078843969331733241112872867120086285525258959256494603456888899754462016278766660871585189713454064195476201258286558135729503670685645423233199890945633636133710703504350216881897473
def dp : Nat := 106396479858835755707764110717240159210226100785980698728931960836800008913406616689129182038692494475165192794018007998847557358135651898167538082914042004145667014204445371585011882300342146130796425372041347775073895689320371045240720703300303086806428288196680299362051256475779256096336018887643085340673
def dq : Nat := 21732773012422747094984911480227647161078968322181929572700479362184367591138070387102469090577708102114775765129262152873773676548185142021200171944342408507097982194310451739015742040985831715703371354021625161544553581985979121081680100710558835123166518994802882935586049681303859207876396813338969833473
/-- `q⁻¹ mod p`. -/
def qInv : Nat := 113056908933668526066722104351705935039196903274353744305319683347565799382946194567571140470487876104007507188431601336681854738815679546406631984280900911320839163430393646661765627069832711883195840143588595254408961100794943229846536253916200325522608476537879407329965994882571786428730971670887258533223
/-- `p⁻¹ mod q`. -/
def pInv : Nat := 30986853925257920259445233509651561803674352153200354178410638459928054055135526430004505577891107780895693284041792305521802273581811207927507634354716574940939988442123682873044950554838913504909876308444403447651954096014168329403175742641302210113288878076948493203009738247021339421297881582722832781979

theorem p_prime : p.Prime := by
  refine prime_of p 11 1024 (by decide +kernel) (by decide +kernel) [2, 3, 5, 7] ?_ (by decide +kernel) (by decide +kernel)
  · intro r hr hd
    rw [p, Nat.add_sub_cancel] at hd
    rcases hr.dvd_mul.1 hd with hd | hd
    · rcases hr.dvd_mul.1 hd with hd | hd
      · rcases hr.dvd_mul.1 hd with hd | hd
        · rw [(Nat.prime_dvd_prime_iff_eq hr (by norm_num)).1 hd]; decide
        · rw [mem_of hr (by norm_num) hd]; decide
      · rw [mem_of hr (by norm_num) hd]; decide
    · rw [mem_of hr (by norm_num) hd]; decide

theorem q_prime : q.Prime := by
  refine prime_of q 6 1024 (by decide +kernel) (by decide +kernel) [2, 5, 7] ?_ (by decide +kernel) (by decide +kernel)
  · intro r hr hd
    rw [q, Nat.add_sub_cancel] at hd
    rcases hr.dvd_mul.1 hd with hd | hd
    · rcases hr.dvd_mul.1 hd with hd | hd
      · rw [mem_of hr (by norm_num) hd]; decide
      · rw [mem_of hr (by norm_num) hd]; decide
    · rw [mem_of hr (by norm_num) hd]; decide

theorem valid : Spec.Rsa.ValidKey n e d p q dp dq qInv where
  primeP := p_prime
  primeQ := q_prime
  oddP := by decide +kernel
  oddQ := by decide +kernel
  distinct := by decide +kernel
  modulus := rfl
  expD := by decide +kernel
  expP := by decide +kernel
  expQ := by decide +kernel
  coeff := by decide +kernel
  dp_lt := by decide +kernel
  dq_lt := by decide +kernel
  qInv_lt := by decide +kernel

/-- The same key with the primes the other way round. -/
theorem valid_swapped : Spec.Rsa.ValidKey n e d q p dq dp pInv where
  primeP := q_prime
  primeQ := p_prime
  oddP := by decide +kernel
  oddQ := by decide +kernel
  distinct := by decide +kernel
  modulus := Nat.mul_comm p q
  expD := by decide +kernel
  expP := by decide +kernel
  expQ := by decide +kernel
  coeff := by decide +kernel
  dp_lt := by decide +kernel
  dq_lt := by decide +kernel
  qInv_lt := by decide +kernel

theorem limits : PrivateLimits n e d p q dp dq qInv where
  pub := ⟨by decide +kernel, by decide +kernel, by decide +kernel, by decide, by decide⟩
  oddP := by decide +kernel
  oddQ := by decide +kernel
  minP := by decide +kernel
  maxP := by decide +kernel
  maxQ := by decide +kernel
  maxD := by decide +kernel
  maxDp := by decide +kernel
  maxDq := by decide +kernel
  maxQInv := by decide +kernel

theorem limits_swapped : PrivateLimits n e d q p dq dp pInv where
  pub := ⟨by decide +kernel, by decide +kernel, by decide +kernel, by decide, by decide⟩
  oddP := by decide +kernel
  oddQ := by decide +kernel
  minP := by decide +kernel
  maxP := by decide +kernel
  maxQ := by decide +kernel
  maxD := by decide +kernel
  maxDp := by decide +kernel
  maxDq := by decide +kernel
  maxQInv := by decide +kernel

theorem used_of {N : Nat} {x : PosInt N} (h : Canon x) (h1 : 2 ^ (64 * 15) ≤ x.value) (h2 : x.value < 2 ^ (64 * 16)) : x.used = 16 := by
  have a := h.min 15
  have b := h.min 16
  omega

/-- The key is accepted, and meets the hypotheses of the theorems about the private operation. -/
theorem accepted {A : Asm} (hA : A.Ok) : ∃ k, signingFromPkcs1 A (Spec.Rsa.privateKeyDer n e d p q dp dq qInv) = .ok k ∧ k.Ok A ∧
    k.Canonical ∧ k.Holds n e d p q dp dq qInv ∧ k.p.used = k.q.used ∧ k.pub.modulusLenBytes % 8 = 0 := by
  rcases Props.C15_import_private_der hA n e d p q dp dq qInv with ⟨_, k, k1, k2, k3, k4⟩ | ⟨h, _⟩
  swap
  · exact absurd limits h
  refine ⟨k, k1, k2, k3, k4, ?_, ?_⟩
  · rw [used_of k3.p (by rw [k4.p]; decide +kernel) (by rw [k4.p]; decide +kernel),
      used_of k3.q (by rw [k4.q]; decide +kernel) (by rw [k4.q]; decide +kernel)]
  · have h1 := (lenBytes_le k.pub.n 256).2 (by rw [k4.pub.n]; decide +kernel)
    have h2 := (le_lenBytes k.pub.n 255).2 (by rw [k4.pub.n]; exact limits.pub.min)
    have : k.pub.modulusLenBytes = 256 := by show k.pub.n.lenBytes = 256; omega
    rw [this]

theorem accepted_swapped {A : Asm} (hA : A.Ok) : ∃ k, signingFromPkcs1 A (Spec.Rsa.privateKeyDer n e d q p dq dp pInv) = .ok k ∧
    k.Ok A ∧ k.Canonical ∧ k.Holds n e d q p dq dp pInv ∧ k.p.used = k.q.used := by
  rcases Props.C15_import_private_der hA n e d q p dq dp pInv with ⟨_, k, k1, k2, k3, k4⟩ | ⟨h, _⟩
  swap
  · exact absurd limits_swapped h
  refine ⟨k, k1, k2, k3, k4, ?_⟩
  rw [used_of k3.p (by rw [k4.p]; decide +kernel) (by rw [k4.p]; decide +kernel),
    used_of k3.q (by rw [k4.q]; decide +kernel) (by rw [k4.q]; decide +kernel)]

/-! ### Cases of the theorems about RSA -/

open Verif.Props

theorem conventional {A : Asm} (hA : A.Ok) : ∃ k, signingFromPkcs1 A (Spec.Rsa.privateKeyDer n e d p q dp dq qInv) = .ok k ∧
    Conventional A k n e d p q dp dq qInv := by
  obtain ⟨k, k1, k2, k3, k4, k5, k6⟩ := accepted hA
  exact ⟨k, k1, k2, k3.n, k4, valid, by decide +kernel, k5, k6⟩

theorem two : ∃ c, fromBytes 128 [2#8] = .ok c ∧ Canon c ∧ c.value = 2 := by
  rcases fromBytes_cases 128 [2#8] with ⟨_, c, c1, c2, c3⟩ | ⟨h, _⟩
  · exact ⟨c, c1, c2, c3⟩
  · exact absurd (Nat.lt_of_lt_of_le (show beNat [2#8] < 2 ^ 2 by decide) (Nat.pow_le_pow_right (by omega) (by omega))) h

/-- The private operation on 2 succeeds with the imported key (C12). -/
example : ∃ k c m, signingFromPkcs1 ref (Spec.Rsa.privateKeyDer n e d p q dp dq qInv) = .ok k ∧ c.value = 2 ∧
    privateOp ref k c = .ok m ∧ m.value ^ e % n = 2 := by
  obtain ⟨k, k1, hk⟩ := conventional ref_ok
  obtain ⟨c, _, c2, c3⟩ := two
  obtain ⟨m, m1, _, _, m3, _⟩ := C12_private_op_partial ref_ok hk.ok hk.holds hk.valid hk.larger hk.words c2
    (by rw [c3]; decide +kernel)
  exact ⟨k, c, m, k1, c3, m1, by rw [m3, c3]⟩

/-- With the primes the other way round it fails for some input (C12). -/
example : ∃ k c err, signingFromPkcs1 ref (Spec.Rsa.privateKeyDer n e d q p dq dp pInv) = .ok k ∧ c.value < n ∧
    privateOp ref k c = .error (.err err) := by
  obtain ⟨k, k1, k2, k3, k4, k5⟩ := accepted_swapped ref_ok
  obtain ⟨b, c, _, c2, err, h⟩ := C12_larger_q_fails ref_ok k2 k4 valid_swapped (by decide +kernel) k5
  exact ⟨k, c, err, k1, c2, h⟩

/-- A key with `dP = 0` is accepted, and using it panics (C12). -/
example : ∃ k c, signingFromPkcs1 ref (Spec.Rsa.privateKeyDer n e d p q 0 dq qInv) = .ok k ∧ privateOp ref k c = .error .panic := by
  obtain ⟨c, _, c2, c3⟩ := two
  rcases C15_import_private_der ref_ok n e d p q 0 dq qInv with ⟨_, k, k1, k2, k3, k4⟩ | ⟨h, _⟩
  · exact ⟨k, c, k1, (C12_panics_iff ref_ok k2 k3 c2.inv (by rw [c3, k4.pub.n]; decide +kernel)).2 (Or.inl k4.dp)⟩
  · exact absurd ⟨limits.pub, limits.oddP, limits.oddQ, limits.minP, limits.maxP, limits.maxQ, limits.maxD, by decide +kernel,
      limits.maxDq, limits.maxQInv⟩ h

/-- The imported key signs, and its signatures verify (C11). -/
example (message : Bytes) (hm : message.length < 2 ^ 61) : ∃ k sig,
    signingFromPkcs1 ref (Spec.Rsa.privateKeyDer n e d p q dp dq qInv) = .ok k ∧
    signPkcs1 ref Hmac.sha256 Pkcs1.DIGESTINFO_SHA256 k 256 message = .ok sig ∧
    verifyPkcs1 ref Hmac.sha256 Pkcs1.DIGESTINFO_SHA256 k.pub sig message = .ok () := by
  obtain ⟨k, k1, hk⟩ := conventional ref_ok
  have h1 := (lenBytes_le k.pub.n 256).2 (by rw [hk.holds.pub.n]; decide +kernel)
  obtain ⟨sig, hs⟩ := C11_pkcs1_signs_partial ref_ok hk .sha256 .sha256 message hm 256 h1
  exact ⟨k, sig, k1, hs, (C11_pkcs1_partial ref_ok hk.ok hk.canonical hk.octets _ _ _ _ _ hs).1⟩

/-- A random source that always answers with ones. -/
def ones : RandomSource := fun _ n => .ok (List.replicate n 1#8)

example (message : Bytes) (hm : message.length < 2 ^ 61) : ∃ k sig,
    signingFromPkcs1 ref (Spec.Rsa.privateKeyDer n e d p q dp dq qInv) = .ok k ∧
    signPss ref Hmac.sha256 ones k 256 message = .ok sig ∧
    verifyPss ref Hmac.sha256 k.pub sig message = .ok () := by
  obtain ⟨k, k1, hk⟩ := conventional ref_ok
  have h1 := (lenBytes_le k.pub.n 256).2 (by rw [hk.holds.pub.n]; decide +kernel)
  have hr : ones.Fills := by intro i n b h; cases h; simp
  have htop : 2 ^ (8 * k.pub.modulusLenBytes - 1) ≤ n :=
    Nat.le_trans (Nat.pow_le_pow_right (by omega) (show 8 * k.pub.modulusLenBytes - 1 ≤ 2047 by
      have : k.pub.modulusLenBytes ≤ 256 := h1
      omega)) (by decide +kernel)
  obtain ⟨sig, hs⟩ := C11_pss_signs_partial ref_ok hk .sha256 htop ones hr message hm 256 h1
  exact ⟨k, sig, k1, hs, (C11_pss_partial ref_ok hk.ok hk.canonical hk.octets .sha256 ones hr _ _ _ hm hs).1⟩

/-- A modulus of 257 octets is accepted for verification, and no signature verifies (C11). -/
example (sig message : Bytes) : ∃ k, verifyingFromPkcs1 ref (Spec.Rsa.publicKeyDer (2 ^ 2050 + 1) 3) = .ok k ∧
    verifyPkcs1 ref Hmac.sha256 Pkcs1.DIGESTINFO_SHA256 k sig message ≠ .ok () := by
  have hl : PublicLimits (2 ^ 2050 + 1) 3 := ⟨by decide +kernel, by decide +kernel, by decide +kernel, by decide, by decide⟩
  rcases C15_import_public ref_ok (Spec.Rsa.publicKeyDer (2 ^ 2050 + 1) 3) with ⟨k, n', e', h1, h2, h3, h4, h5, h6⟩ | ⟨h, _⟩
  swap
  · exact absurd ⟨_, _, rfl, hl⟩ h
  refine ⟨k, h3, C11_pkcs1_odd_length ref_ok h4 ?_ _ _ _ _⟩
  have f1 := fromBytes_der .rsaPublicKey (publicStruct n' e') (publicStruct_valid n' e')
    (by rw [publicStruct_der]; have := publicKeyDer_length h2; omega)
  have f2 := fromBytes_der .rsaPublicKey (publicStruct (2 ^ 2050 + 1) 3) (publicStruct_valid _ _)
    (by rw [publicStruct_der]; have := publicKeyDer_length hl; omega)
  rw [publicStruct_der, ← h1] at f1
  rw [publicStruct_der, f1] at f2
  injection f2 with f2
  have f3 := congrArg (fun v : Asn1.RSAPublicKey => beNat v.modulus.twosComplement) f2
  simp only [publicStruct, Spec.Der.natOctets_beNat] at f3
  have hn := h6.n
  rw [f3] at hn
  have b1 := (lenBytes_le k.n 257).2 (by rw [hn]; decide +kernel)
  have b2 := (le_lenBytes k.n 256).2 (by rw [hn]; decide +kernel)
  have : k.modulusLenBytes = 257 := by show k.n.lenBytes = 257; omega
  rw [this]; decide

/-- A public exponent of `2^31 + 1` is accepted, exported, and not accepted again (C15). -/
example : ∃ k out err, verifyingFromPkcs1 ref (Spec.Rsa.publicKeyDer n (2 ^ 31 + 1)) = .ok k ∧
    verifyingToPkcs1 k (List.replicate 2000 0#8) = .ok out ∧ verifyingFromPkcs1 ref out = .error (.err err) := by
  have hl : PublicLimits n (2 ^ 31 + 1) := ⟨limits.pub.odd, limits.pub.min, limits.pub.max, by decide, by decide⟩
  rcases C15_import_public ref_ok (Spec.Rsa.publicKeyDer n (2 ^ 31 + 1)) with ⟨k, n', e', h1, h2, h3, h4, h5, h6⟩ | ⟨h, _⟩
  swap
  · exact absurd ⟨_, _, rfl, hl⟩ h
  have f1 := fromBytes_der .rsaPublicKey (publicStruct n' e') (publicStruct_valid n' e')
    (by rw [publicStruct_der]; have := publicKeyDer_length h2; omega)
  have f2 := fromBytes_der .rsaPublicKey (publicStruct n (2 ^ 31 + 1)) (publicStruct_valid _ _)
    (by rw [publicStruct_der]; have := publicKeyDer_length hl; omega)
  rw [publicStruct_der, ← h1] at f1
  rw [publicStruct_der, f1] at f2
  injection f2 with f2
  have f3 := congrArg (fun v : Asn1.RSAPublicKey => beNat v.publicExponent.twosComplement) f2
  simp only [publicStruct, Spec.Der.natOctets_beNat] at f3
  have hex := verifyingToPkcs1_eq h4 h6 (List.replicate 2000 0#8) _ rfl
  rw [if_pos (by have := exportedPublic_length h4 h6 _ rfl; rw [List.length_replicate]; omega)] at hex
  obtain ⟨_, err, hr⟩ := C15_large_exponent_not_reimported ref_ok h4 h6 (by rw [f3]; omega) _ _ hex
  exact ⟨k, _, err, h3, hex, hr⟩

/-- Export and import give the key back (C15). -/
example : ∃ k out, signingFromPkcs1 ref (Spec.Rsa.privateKeyDer n e d p q dp dq qInv) = .ok k ∧
    signingToPkcs8 k (List.replicate 5000 0#8) = .ok out ∧ signingFromPkcs8 ref out = .ok k := by
  obtain ⟨k, k1, k2, k3, k4, _⟩ := accepted ref_ok
  obtain ⟨h1, h2⟩ := C15_pkcs8_partial ref_ok k2 k3 k4 (by decide) (List.replicate 5000 0#8) (by rw [List.length_replicate]; decide)
  exact ⟨k, _, k1, h1, h2⟩

end Verif.RsaExample
