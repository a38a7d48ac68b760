import Verif.Proof.ChaCha20
import Verif.Proof.Poly1305Stream
import Verif.Proof.Ct
import Verif.Spec.ChaChaPoly
import Verif.Model.ChaChaPoly

/-!
Lemmas for C25-C27: the AEAD constructions over any correct stream cipher.
-/
namespace Verif.ChaChaPoly
open Verif

/-- `S` computes ChaCha20: `At st key nonce ctr` says the state is at block `ctr`. -/
structure Correct (S : Stream) where
  At : S.St → Bytes → Bytes → BitVec 32 → Prop
  new : ∀ key nonce, key.length = 32 → nonce.length = 12 →
    At (S.new key (List.replicate 4 0#8 ++ nonce)) key nonce 0#32
  xnew : ∀ key nonce, key.length = 32 → nonce.length = 24 →
    At (S.xnew key nonce) (Spec.ChaChaPoly.subkey key nonce) (Spec.ChaChaPoly.subnonce nonce) 0#32
  cipher : ∀ st key nonce ctr buf, key.length = 32 → nonce.length = 12 → At st key nonce ctr →
    (S.cipher st buf).2 = Spec.ChaCha20.encrypt key ctr nonce buf
  step : ∀ st key nonce ctr buf, key.length = 32 → nonce.length = 12 → At st key nonce ctr →
    buf.length = 32 → At (S.cipher st buf).1 key nonce (ctr + 1#32)

def correctPortable : Correct .portable where
  At st key nonce ctr := st = ChaCha20.stateAt key nonce ctr
  new key nonce _ hn := ChaCha20.new_ok key nonce 0#32 hn
  xnew key nonce hk hn := ChaCha20.xnew_ok key nonce hk hn
  cipher st key nonce ctr buf hk hn h := by
    subst h; exact congrArg Prod.snd (ChaCha20.cipher_ok key nonce ctr buf hk hn)
  step st key nonce ctr buf hk hn h hl := by
    subst h
    have := congrArg Prod.fst (ChaCha20.cipher_ok key nonce ctr buf hk hn)
    rw [hl] at this; exact this

def correctAvx2 : Correct .avx2 where
  At st key nonce ctr := st = ChaCha20X86.ofPortable (ChaCha20.stateAt key nonce ctr)
  new key nonce _ hn := ChaCha20X86.new_ok key nonce 0#32 hn
  xnew key nonce hk hn :=
    (ChaCha20X86.xnew_eq key nonce).trans (congrArg _ (ChaCha20.xnew_ok key nonce hk hn))
  cipher st key nonce ctr buf hk hn h := by
    subst h; exact congrArg Prod.snd (ChaCha20X86.cipher_ok key nonce ctr buf hk hn)
  step st key nonce ctr buf hk hn h hl := by
    subst h
    have := congrArg Prod.fst (ChaCha20X86.cipher_ok key nonce ctr buf hk hn)
    rw [hl] at this; exact this

theorem encrypt_zeros (key nonce : Bytes) (hk : key.length = 32) (hn : nonce.length = 12) :
    Spec.ChaCha20.encrypt key 0#32 nonce (List.replicate 32 0#8) = Spec.ChaChaPoly.polyKey key nonce := by
  rw [ChaCha20.encrypt_single _ _ _ _ hk hn (by simp), Spec.ChaChaPoly.polyKey]
  have hb := ChaCha20.block_length key nonce 0#32 hk hn
  apply List.ext_getElem
  · simp [hb]
  · intro i h1 h2
    rw [List.getElem_zipWith, List.getElem_replicate, List.getElem_take, BitVec.zero_xor]

theorem pad_ok (pk : Bytes) (p : Poly1305.Poly1305) (m x : Bytes) (h : Poly1305.Absorbed pk p m) :
    ∃ p', pad p x.length = some p' ∧ Poly1305.Absorbed pk p' (m ++ Spec.ChaChaPoly.pad16 x) := by
  have e : x.length &&& 0xf = x.length % 16 := Nat.and_two_pow_sub_one_eq_mod x.length 4
  rw [pad, e]
  by_cases hc : 16 - x.length % 16 = 16
  · rw [if_neg (by simpa using hc)]
    refine ⟨p, rfl, ?_⟩
    rw [Spec.ChaChaPoly.pad16, hc]
    simpa using h
  · rw [if_pos hc]
    obtain ⟨p', e', h'⟩ := Poly1305.addBytes_ok pk p m
      ((List.replicate 16 0#8).take (16 - x.length % 16)) h
    refine ⟨p', e', ?_⟩
    rw [Spec.ChaChaPoly.pad16]
    rw [List.take_replicate] at h'
    rw [show (16 - x.length % 16) % 16 = min (16 - x.length % 16) 16 by omega]
    exact h'

theorem cipherWith_ok {S : Stream} (C : Correct S) (st : S.St) (key nonce aad inout : Bytes) (enc : Bool)
    (hk : key.length = 32) (hn : nonce.length = 12) (h : C.At st key nonce 0#32) :
    cipherWith S st aad inout enc = some (Spec.ChaCha20.encrypt key 1#32 nonce inout,
      Spec.ChaChaPoly.tag key nonce aad
        (if enc then Spec.ChaCha20.encrypt key 1#32 nonce inout else inout)) := by
  have h0 := C.cipher st key nonce 0#32 (List.replicate 32 0#8) hk hn h
  have h1 := C.step st key nonce 0#32 (List.replicate 32 0#8) hk hn h (by simp)
  rw [encrypt_zeros key nonce hk hn] at h0
  rw [show (0#32 + 1#32 : BitVec 32) = 1#32 from rfl] at h1
  have hout := C.cipher _ key nonce 1#32 inout hk hn h1
  have hpk : (Spec.ChaChaPoly.polyKey key nonce).length = 32 := by
    rw [Spec.ChaChaPoly.polyKey, List.length_take, ChaCha20.block_length key nonce _ hk hn]; rfl
  have hlen := ChaCha20.encrypt_length key nonce 1#32 inout
  rw [cipherWith]
  simp only [Option.bind_eq_bind, Option.pure_def]
  rw [h0, hout]
  obtain ⟨p1, e1, a1⟩ := Poly1305.addBytes_ok _ _ [] aad
    (Poly1305.absorbed_new (Spec.ChaChaPoly.polyKey key nonce))
  rw [e1]; simp only [Option.bind_some]
  obtain ⟨p2, e2, a2⟩ := pad_ok _ p1 _ aad a1
  rw [e2]; simp only [Option.bind_some]
  have fin : ∀ (p3 : Poly1305.Poly1305) (ct : Bytes), ct.length = inout.length →
      Poly1305.Absorbed (Spec.ChaChaPoly.polyKey key nonce) p3
        ([] ++ aad ++ Spec.ChaChaPoly.pad16 aad ++ ct) →
      ((pad p3 (Spec.ChaCha20.encrypt key 1#32 nonce inout).length).bind fun poly =>
        (Poly1305.addBytes poly (toLE 8 aad.length)).bind fun poly =>
        (Poly1305.addBytes poly (toLE 8 (Spec.ChaCha20.encrypt key 1#32 nonce inout).length)).bind
          fun poly => (Poly1305.finish poly).bind fun tag =>
          some (Spec.ChaCha20.encrypt key 1#32 nonce inout, tag)) =
      some (Spec.ChaCha20.encrypt key 1#32 nonce inout, Spec.ChaChaPoly.tag key nonce aad ct) := by
    intro p3 ct hct a3
    rw [hlen, ← hct]
    obtain ⟨p4, e4, a4⟩ := pad_ok _ p3 _ ct a3
    rw [e4]; simp only [Option.bind_some]
    obtain ⟨p5, e5, a5⟩ := Poly1305.addBytes_ok _ _ _ (toLE 8 aad.length) a4
    rw [e5]; simp only [Option.bind_some]
    obtain ⟨p6, e6, a6⟩ := Poly1305.addBytes_ok _ _ _ (toLE 8 ct.length) a5
    rw [e6]; simp only [Option.bind_some]
    rw [Poly1305.finish_ok _ hpk _ _ a6]
    rfl
  cases enc with
  | true =>
    obtain ⟨p3, e3, a3⟩ := Poly1305.addBytes_ok _ p2 _ (Spec.ChaCha20.encrypt key 1#32 nonce inout) a2
    simp only [if_true, e3, Option.bind_some]
    exact fin p3 _ hlen a3
  | false =>
    obtain ⟨p3, e3, a3⟩ := Poly1305.addBytes_ok _ p2 _ inout a2
    simp only [Bool.false_eq_true, if_false, e3, Option.bind_some]
    exact fin p3 _ rfl a3

theorem encrypt_involutive (key nonce : Bytes) (ctr : BitVec 32) (d : Bytes) :
    Spec.ChaCha20.encrypt key ctr nonce (Spec.ChaCha20.encrypt key ctr nonce d) = d := by
  apply List.ext_getElem
  · rw [ChaCha20.encrypt_length, ChaCha20.encrypt_length]
  · intro i h1 h2
    simp [Spec.ChaCha20.encrypt, BitVec.xor_assoc]

theorem checkTag_eq (tag : Bytes) (r : Bytes × Bytes) :
    checkTag tag r = if tag = r.2 then (.ok (), r.1)
      else (.error .DecryptFailed, List.replicate r.1.length 0#8) := by
  rw [checkTag]
  by_cases h : tag = r.2
  · rw [if_pos h, if_pos ((Ct.ctEqual_iff _ _).2 h.symm)]
  · rw [if_neg h, if_neg (fun e => h ((Ct.ctEqual_iff _ _).1 e).symm)]

theorem subkey_length (key nonce : Bytes) (hk : key.length = 32) (hn : nonce.length = 24) :
    (Spec.ChaChaPoly.subkey key nonce).length = 32 :=
  (ChaCha20.hchacha_ok key (nonce.take 16) hk (by simp; omega)).2

theorem subnonce_length (nonce : Bytes) (hn : nonce.length = 24) :
    (Spec.ChaChaPoly.subnonce nonce).length = 12 := by
  simp [Spec.ChaChaPoly.subnonce, hn]

end Verif.ChaChaPoly
