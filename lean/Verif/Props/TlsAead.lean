import Verif.Model.TlsAead
import Verif.Spec.Tls
import Verif.Props.ChaCha
import Verif.Props.Gcm

/-!
C52: TLS record protection (`rustls-graviola/src/aead.rs`) against `Spec/Tls.lean`.
-/
namespace Verif.Props
open Verif Verif.TlsAead

/-- What a record layer needs of its AEAD, for messages of less than 2^32 bytes. -/
structure CipherOk (A : Cipher) (spec : Spec.Tls.Aead) : Prop where
  encrypt : ∀ n a p : Bytes, n.length = 12 → p.length < 2 ^ 32 → A.encrypt n a p = some (spec n a p)
  fst : ∀ n a p : Bytes, n.length = 12 → (spec n a p).1.length = p.length
  snd : ∀ n a p : Bytes, n.length = 12 → (spec n a p).2.length = 16
  decrypt : ∀ n a c t : Bytes, n.length = 12 → c.length < 2 ^ 32 → ∃ r, A.decrypt n a c t = some r ∧
    (∀ p, r = (.ok (), p) ↔ spec n a p = (c, t))

theorem chachaCipher (b : Backend) (key : Bytes) (hk : key.length = 32) :
    ∃ A, TlsAead.chacha b.stream key = some A ∧ CipherOk A (Spec.Tls.chachaPoly key) := by
  refine ⟨_, if_pos hk, ?_, ?_, ?_, ?_⟩
  · intro n a p hn _
    exact C25_chacha_seal b key n a p hk hn
  · intro n a p hn
    obtain ⟨ct, tag, h1, h2, h3, _⟩ := C25_chacha b b key n a p hk hn
    rw [C25_chacha_seal b key n a p hk hn] at h1
    rw [Spec.Tls.chachaPoly, Option.some.inj h1]; exact h2
  · intro n a p hn
    obtain ⟨ct, tag, h1, h2, h3, _⟩ := C25_chacha b b key n a p hk hn
    rw [C25_chacha_seal b key n a p hk hn] at h1
    rw [Spec.Tls.chachaPoly, Option.some.inj h1]; exact h3
  · intro n a c t hn _
    refine ⟨_, C26_chacha b key n a c t hk hn, fun p => ⟨fun h => ?_, fun h => ?_⟩⟩
    · split at h
      · rename_i ht
        have hp : Spec.ChaChaPoly.opened key n c = p := (Prod.ext_iff.1 h).2
        have hx : Spec.ChaCha20.encrypt key 1#32 n p = c := by
          rw [← hp, Spec.ChaChaPoly.opened]
          exact ChaChaPoly.encrypt_involutive _ _ _ _
        rw [Spec.Tls.chachaPoly, Spec.ChaChaPoly.sealed, hx, ht]
      · exact absurd (Prod.ext_iff.1 h).1 (by simp)
    · have h1 : Spec.ChaCha20.encrypt key 1#32 n p = c := (Prod.ext_iff.1 h).1
      have h2 : Spec.ChaChaPoly.tag key n a (Spec.ChaCha20.encrypt key 1#32 n p) = t := (Prod.ext_iff.1 h).2
      rw [h1] at h2
      rw [if_pos h2.symm, ← h1, Spec.ChaChaPoly.opened, ChaChaPoly.encrypt_involutive]

theorem gcmCipher (w : Bool) (key : Bytes) (hk : key.length = 16 ∨ key.length = 32) :
    ∃ A, TlsAead.gcm w key = some A ∧ CipherOk A (Spec.Tls.aesGcm key) := by
  obtain ⟨g, h1, _⟩ := AesGcm.run_ok w key hk
  have hs : ∀ n a p : Bytes, n.length = 12 → p.length < 2 ^ 32 →
      g.encrypt n a p = Spec.Gcm.sealed (Spec.Aes.cipher key) n a p := by
    intro n a p hn hp
    have := C28_gcm w key n a p hk hn (fun _ => by omega)
    rw [gcmSeal, h1] at this
    exact Option.some.inj this
  refine ⟨_, by rw [TlsAead.gcm, h1]; rfl, ?_, ?_, ?_, ?_⟩
  · intro n a p hn hp
    exact congrArg some (hs n a p hn hp)
  · intro n a p hn
    exact AesGcm.crypt_length key hk n p hn
  · intro n a p hn
    exact AesGcm.tag_length key hk _ _ _ hn
  · intro n a c t hn hc
    have hd := C26_gcm w key n a c t hk hn (fun _ => by omega)
    rw [gcmOpen, h1] at hd
    refine ⟨_, hd, fun p => ⟨fun h => ?_, fun h => ?_⟩⟩
    · split at h
      · rename_i ht
        have hp : Spec.Gcm.crypt (Spec.Aes.cipher key) n c = p := (Prod.ext_iff.1 h).2
        have hx : Spec.Gcm.crypt (Spec.Aes.cipher key) n p = c := by
          rw [← hp]
          exact AesGcm.crypt_crypt key hk n c hn
        refine Prod.ext_iff.2 ⟨hx, ?_⟩
        exact (congrArg (Spec.Gcm.tag (Spec.Aes.cipher key) n a) hx).trans ht.symm
      · exact absurd (Prod.ext_iff.1 h).1 (by simp)
    · have h1 : Spec.Gcm.crypt (Spec.Aes.cipher key) n p = c := (Prod.ext_iff.1 h).1
      have h2 : Spec.Gcm.tag (Spec.Aes.cipher key) n a (Spec.Gcm.crypt (Spec.Aes.cipher key) n p) = t := (Prod.ext_iff.1 h).2
      rw [h1] at h2
      rw [if_pos h2.symm, ← h1, AesGcm.crypt_crypt key hk n p hn]

/-! ### Nonces -/

theorem nonce_length (iv : Bytes) (seq : BitVec 64) (hiv : iv.length = 12) : (Spec.Tls.nonce iv seq).length = 12 := by
  simp only [Spec.Tls.nonce, List.length_zipWith, List.length_append, List.length_replicate, toBE_length, hiv]
  omega

theorem xor_cancel : ∀ iv a b : Bytes, a.length = iv.length → b.length = iv.length →
    List.zipWith (· ^^^ ·) iv a = List.zipWith (· ^^^ ·) iv b → a = b
  | [], [], [], _, _, _ => rfl
  | i :: iv, a :: as, b :: bs, h1, h2, h => by
    simp only [List.zipWith_cons_cons, List.cons.injEq] at h
    have e : a = b := by
      have := congrArg (i ^^^ ·) h.1
      simpa only [← BitVec.xor_assoc, BitVec.xor_self, BitVec.zero_xor] using this
    rw [e, xor_cancel iv as bs (by simpa using h1) (by simpa using h2) h.2]

/-- **C52** Under one IV, two sequence numbers never share a nonce. -/
theorem C52_nonce_unique (iv : Bytes) (hiv : iv.length = 12) (seq seq' : BitVec 64)
    (h : Spec.Tls.nonce iv seq = Spec.Tls.nonce iv seq') : seq = seq' := by
  have h := xor_cancel iv _ _ (by simp [toBE_length, hiv]) (by simp [toBE_length, hiv]) h
  have h := congrArg beNat (List.append_cancel_left h)
  rw [beNat_toBE, beNat_toBE] at h
  have := seq.isLt
  have := seq'.isLt
  apply BitVec.eq_of_toNat_eq
  omega

/-! ### TLS 1.3 -/

theorem unpadRev_replicate (n : Nat) (bs : Bytes) : unpadRev (List.replicate n 0#8 ++ bs) = unpadRev bs := by
  induction n with
  | zero => rfl
  | succ n ih => rw [List.replicate_succ, List.cons_append, unpadRev, if_pos rfl, ih]

theorem unpadRev_spec : ∀ r : Bytes, (unpadRev r).1 ≠ 0#8 →
    ∃ n, r = List.replicate n 0#8 ++ (unpadRev r).1 :: (unpadRev r).2
  | [], h => absurd rfl h
  | b :: bs, h => by
    rw [unpadRev] at h ⊢
    by_cases hb : b = 0#8
    · rw [if_pos hb] at h ⊢
      obtain ⟨n, hn⟩ := unpadRev_spec bs h
      exact ⟨n + 1, by rw [hb, List.replicate_succ, List.cons_append, ← hn]⟩
    · rw [if_neg hb]
      exact ⟨0, rfl⟩

/-- rustls' unpadding finds the content and type of an inner plaintext and nothing else. -/
theorem intoTls13Unpadded_iff (m r : Message) :
    intoTls13Unpadded m = .ok r ↔ r.version = 0x0304#16 ∧ Spec.Tls.Inner m.payload r.payload r.typ ∧
      m.payload.length ≤ 16385 ∧ r.payload.length ≤ 16384 := by
  constructor
  · intro h
    unfold intoTls13Unpadded at h
    split at h
    · cases h
    rename_i h1
    dsimp only at h
    split at h
    · cases h
    rename_i h2
    split at h
    · cases h
    rename_i h3
    have h := Except.ok.inj h
    obtain ⟨n, hn⟩ := unpadRev_spec _ h2
    subst h
    refine ⟨rfl, ⟨h2, n, ?_⟩, by omega, by simpa using h3⟩
    have := congrArg List.reverse hn
    rw [List.reverse_reverse] at this
    refine this.trans ?_
    simp
  · rintro ⟨h1, ⟨h2, n, h3⟩, h4, h5⟩
    have e : unpadRev m.payload.reverse = (r.typ, r.payload.reverse) := by
      rw [h3]
      simp only [List.reverse_append, List.reverse_replicate]
      rw [unpadRev_replicate]
      simp [unpadRev, h2]
    unfold intoTls13Unpadded
    rw [if_neg (by omega), e]
    dsimp only
    rw [if_neg h2, if_neg (by simpa using h5), List.reverse_reverse]
    obtain ⟨t, v, p⟩ := r
    dsimp only at h1
    rw [h1]; rfl

theorem aad13_eq (n : Nat) : makeTls13Aad n = Spec.Tls.aad13 n := rfl

/-- `encrypt` for TLS 1.3. -/
theorem tls13_encrypt {A : Cipher} {spec : Spec.Tls.Aead} (hA : CipherOk A spec) (iv : Bytes) (hiv : iv.length = 12)
    (m : Message) (seq : BitVec 64) (hm : m.payload.length < 2 ^ 32 - 1) :
    ∃ body, chachaTls13Encrypt A iv m seq = some ⟨23#8, 0x0303#16, body⟩ ∧ body.length = m.payload.length + 17 ∧
      Spec.Tls.Record13 spec iv seq (m.payload ++ [m.typ]) body := by
  have hl : (m.payload ++ [m.typ]).length = m.payload.length + 1 := by simp
  have hn := nonce_length iv seq hiv
  refine ⟨_, ?_, ?_, rfl⟩
  · unfold chachaTls13Encrypt
    dsimp only
    rw [hA.encrypt (nonceNew iv seq) _ _ hn (by omega), hl]
    rfl
  · rw [List.length_append, hA.fst _ _ _ hn, hA.snd _ _ _ hn, hl]

theorem split_body {body ct tag : Bytes} (h : body = ct ++ tag) (ht : tag.length = 16) :
    body.take (body.length - 16) = ct ∧ body.drop (body.length - 16) = tag := by
  have : body.length - 16 = ct.length := by rw [h, List.length_append]; omega
  rw [this, h]
  exact ⟨List.take_left, List.drop_left⟩

theorem andThen_iff {r : Option (Except GError Unit × Bytes)} {f : Bytes → Except TlsError Message} {x} (hr : r = some x)
    (out : Message) : ∃ y, andThen r f = some y ∧ (y = .ok out ↔ ∃ p, x = (.ok (), p) ∧ f p = .ok out) := by
  rw [hr]
  rcases x with ⟨⟨e⟩ | ⟨u⟩, p⟩
  · refine ⟨.error .DecryptError, rfl, ⟨fun h => (by cases h), fun ⟨p, h, _⟩ => ?_⟩⟩
    exact absurd (Prod.ext_iff.1 h).1 (by simp)
  · refine ⟨f p, rfl, ⟨fun h => ⟨p, rfl, h⟩, fun ⟨q, h, g⟩ => ?_⟩⟩
    have := (Prod.ext_iff.1 h).2
    dsimp only at this
    rw [this]; exact g

/-- `decrypt` for TLS 1.3. -/
theorem tls13_decrypt {A : Cipher} {spec : Spec.Tls.Aead} (hA : CipherOk A spec) (iv : Bytes) (hiv : iv.length = 12)
    (m : Message) (seq : BitVec 64) (hm : m.payload.length < 2 ^ 32) :
    ∃ r, chachaTls13Decrypt A iv m seq = some r ∧
      (m.payload.length < 16 → r = .error .DecryptError) ∧
      ∀ out, r = .ok out ↔ out.version = 0x0304#16 ∧ ∃ inner, Spec.Tls.Record13 spec iv seq inner m.payload ∧
        Spec.Tls.Inner inner out.payload out.typ ∧ inner.length ≤ 16385 ∧ out.payload.length ≤ 16384 := by
  have hn := nonce_length iv seq hiv
  unfold chachaTls13Decrypt
  dsimp only
  by_cases hs : m.payload.length < 16
  · rw [if_pos hs]
    refine ⟨_, rfl, fun _ => rfl, fun out => ⟨fun h => (by cases h), ?_⟩⟩
    rintro ⟨_, inner, h, _⟩
    have := congrArg List.length h
    rw [List.length_append, hA.snd _ _ _ hn] at this
    omega
  rw [if_neg hs]
  obtain ⟨x, h1, h2⟩ := hA.decrypt (nonceNew iv seq) (makeTls13Aad m.payload.length) (m.payload.take (m.payload.length - 16))
    (m.payload.drop (m.payload.length - 16)) hn (by rw [List.length_take]; omega)
  obtain ⟨y, h3, _⟩ := andThen_iff (f := fun plain => intoTls13Unpadded { m with payload := plain }) h1 m
  refine ⟨y, h3, fun h => absurd h hs, fun out => ?_⟩
  obtain ⟨y', h3', h4⟩ := andThen_iff (f := fun plain => intoTls13Unpadded { m with payload := plain }) h1 out
  rw [h3] at h3'
  cases h3'
  rw [h4]
  constructor
  · rintro ⟨p, hp, hf⟩
    obtain ⟨g1, g2, g3, g4⟩ := (intoTls13Unpadded_iff _ _).1 hf
    have e := (h2 p).1 hp
    have len : p.length + 16 = m.payload.length := by
      rw [← hA.fst (nonceNew iv seq) (makeTls13Aad m.payload.length) p hn, e, List.length_take]
      omega
    refine ⟨g1, p, ?_, g2, g3, g4⟩
    rw [Spec.Tls.Record13, len]
    have e' : spec (Spec.Tls.nonce iv seq) (Spec.Tls.aad13 m.payload.length) p = _ := e
    rw [e', List.take_append_drop]
  · rintro ⟨g1, p, g2, g3, g4, g5⟩
    refine ⟨p, (h2 p).2 ?_, (intoTls13Unpadded_iff _ _).2 ⟨g1, g3, g4, g5⟩⟩
    have ht := hA.snd (Spec.Tls.nonce iv seq) (Spec.Tls.aad13 (p.length + 16)) p hn
    have hf := hA.fst (Spec.Tls.nonce iv seq) (Spec.Tls.aad13 (p.length + 16)) p hn
    have len : m.payload.length = p.length + 16 := by
      have := congrArg List.length g2
      rw [List.length_append] at this
      omega
    obtain ⟨e1, e2⟩ := split_body g2 ht
    rw [e1, e2, len]
    rfl

/-- The two TLS 1.3 ciphers. -/
inductive Suite13 | chacha (b : Backend) | gcm (w : Bool)
def Suite13.keyOk : Suite13 → Bytes → Prop
  | .chacha _, key => key.length = 32
  | .gcm _, key => key.length = 16 ∨ key.length = 32
def Suite13.spec : Suite13 → Bytes → Spec.Tls.Aead
  | .chacha _, key => Spec.Tls.chachaPoly key
  | .gcm _, key => Spec.Tls.aesGcm key
/-- A cipher made by `encrypter` encrypts a message. -/
def Suite13.encrypt : Suite13 → Bytes → Bytes → Message → BitVec 64 → Option Message
  | .chacha b, key, iv, m, seq => (TlsAead.chacha b.stream key).bind fun A => chachaTls13Encrypt A iv m seq
  | .gcm w, key, iv, m, seq => (TlsAead.gcm w key).bind fun A => gcmTls13Encrypt A iv m seq
/-- A cipher made by `decrypter` decrypts a message. -/
def Suite13.decrypt : Suite13 → Bytes → Bytes → Message → BitVec 64 → Option (Except TlsError Message)
  | .chacha b, key, iv, m, seq => (TlsAead.chacha b.stream key).bind fun A => chachaTls13Decrypt A iv m seq
  | .gcm w, key, iv, m, seq => (TlsAead.gcm w key).bind fun A => gcmTls13Decrypt A iv m seq

/-- **C52** TLS 1.3: what `encrypt` sends is RFC 8446's record for the payload, its type and no padding. -/
theorem C52_tls13_encrypt (s : Suite13) (key iv : Bytes) (hk : s.keyOk key) (hiv : iv.length = 12) (m : Message)
    (seq : BitVec 64) (hm : m.payload.length < 2 ^ 32 - 1) :
    ∃ body, s.encrypt key iv m seq = some ⟨23#8, 0x0303#16, body⟩ ∧ body.length = m.payload.length + 17 ∧
      Spec.Tls.Record13 (s.spec key) iv seq (m.payload ++ [m.typ]) body := by
  cases s with
  | chacha b =>
    obtain ⟨A, h1, h2⟩ := chachaCipher b key hk
    rw [Suite13.encrypt, h1]
    exact tls13_encrypt h2 iv hiv m seq hm
  | gcm w =>
    obtain ⟨A, h1, h2⟩ := gcmCipher w key hk
    rw [Suite13.encrypt, h1]
    exact tls13_encrypt h2 iv hiv m seq hm

/-- **C52** TLS 1.3: `decrypt` accepts a record exactly when it is RFC 8446's record, under this sequence number, for some
content and type and any padding that fits, and gives that content and type.  It never panics, and refuses records shorter than
the tag. -/
theorem C52_tls13_decrypt (s : Suite13) (key iv : Bytes) (hk : s.keyOk key) (hiv : iv.length = 12) (m : Message)
    (seq : BitVec 64) (hm : m.payload.length < 2 ^ 32) :
    ∃ r, s.decrypt key iv m seq = some r ∧
      (m.payload.length < 16 → r = .error .DecryptError) ∧
      ∀ out, r = .ok out ↔ out.version = 0x0304#16 ∧ ∃ inner, Spec.Tls.Record13 (s.spec key) iv seq inner m.payload ∧
        Spec.Tls.Inner inner out.payload out.typ ∧ inner.length ≤ 16385 ∧ out.payload.length ≤ 16384 := by
  cases s with
  | chacha b =>
    obtain ⟨A, h1, h2⟩ := chachaCipher b key hk
    rw [Suite13.decrypt, h1]
    exact tls13_decrypt h2 iv hiv m seq hm
  | gcm w =>
    obtain ⟨A, h1, h2⟩ := gcmCipher w key hk
    rw [Suite13.decrypt, h1]
    exact tls13_decrypt h2 iv hiv m seq hm

/-- **C52** TLS 1.3: the peer, on whatever CPU, recovers payload and type. -/
theorem C52_tls13_round_trip (s s' : Suite13) (key iv : Bytes) (hs : s.spec key = s'.spec key) (hk : s.keyOk key)
    (hk' : s'.keyOk key) (hiv : iv.length = 12) (m : Message) (seq : BitVec 64) (hm : m.payload.length ≤ 16384)
    (ht : m.typ ≠ 0#8) :
    ∃ body, s.encrypt key iv m seq = some ⟨23#8, 0x0303#16, body⟩ ∧
      s'.decrypt key iv ⟨23#8, 0x0303#16, body⟩ seq = some (.ok ⟨m.typ, 0x0304#16, m.payload⟩) := by
  obtain ⟨body, h1, h2, h3⟩ := C52_tls13_encrypt s key iv hk hiv m seq (by omega)
  refine ⟨body, h1, ?_⟩
  obtain ⟨r, g1, _, g2⟩ := C52_tls13_decrypt s' key iv hk' hiv ⟨23#8, 0x0303#16, body⟩ seq (by dsimp only; omega)
  rw [g1, (g2 ⟨m.typ, 0x0304#16, m.payload⟩).2 ⟨rfl, m.payload ++ [m.typ], hs ▸ h3, ⟨ht, 0, by simp⟩, by simp; omega, hm⟩]

/-! ### TLS 1.2 -/

/-- **C52** TLS 1.2 with ChaCha20-Poly1305: what `encrypt` sends is RFC 7905's record. -/
theorem C52_chacha12_encrypt (b : Backend) (key iv : Bytes) (hk : key.length = 32) (hiv : iv.length = 12) (m : Message)
    (seq : BitVec 64) (hm : m.payload.length < 2 ^ 32) :
    ∃ body, ((TlsAead.chacha b.stream key).bind fun A => chachaTls12Encrypt A iv m seq) = some ⟨m.typ, m.version, body⟩ ∧
      body.length = m.payload.length + 16 ∧
      Spec.Tls.Record12Chacha (Spec.Tls.chachaPoly key) iv seq m.typ m.version m.payload body := by
  obtain ⟨A, h1, hA⟩ := chachaCipher b key hk
  have hn := nonce_length iv seq hiv
  refine ⟨_, ?_, ?_, rfl⟩
  · rw [h1, Option.bind_some]
    unfold chachaTls12Encrypt
    dsimp only
    rw [hA.encrypt (nonceNew iv seq) _ _ hn hm]
    rfl
  · rw [List.length_append, hA.fst _ _ _ hn, hA.snd _ _ _ hn]

/-- **C52** TLS 1.2 with ChaCha20-Poly1305: `decrypt` accepts a record exactly when it is RFC 7905's record, under this sequence
number, type and version, for some content, and gives that content. -/
theorem C52_chacha12_decrypt (b : Backend) (key iv : Bytes) (hk : key.length = 32) (hiv : iv.length = 12) (m : Message)
    (seq : BitVec 64) (hm : m.payload.length < 2 ^ 32) :
    ∃ r, ((TlsAead.chacha b.stream key).bind fun A => chachaTls12Decrypt A iv m seq) = some r ∧
      (m.payload.length < 16 → r = .error .DecryptError) ∧
      ∀ out, r = .ok out ↔ out.typ = m.typ ∧ out.version = m.version ∧
        Spec.Tls.Record12Chacha (Spec.Tls.chachaPoly key) iv seq m.typ m.version out.payload m.payload := by
  obtain ⟨A, hA0, hA⟩ := chachaCipher b key hk
  have hn := nonce_length iv seq hiv
  rw [hA0, Option.bind_some]
  unfold chachaTls12Decrypt
  dsimp only
  by_cases hs : m.payload.length < 16
  · rw [if_pos hs]
    refine ⟨_, rfl, fun _ => rfl, fun out => ⟨fun h => (by cases h), ?_⟩⟩
    rintro ⟨_, _, h⟩
    have := congrArg List.length h
    rw [List.length_append, hA.snd _ _ _ hn] at this
    omega
  rw [if_neg hs]
  obtain ⟨x, h1, h2⟩ := hA.decrypt (nonceNew iv seq) (makeTls12Aad seq m.typ m.version (m.payload.length - 16))
    (m.payload.take (m.payload.length - 16)) (m.payload.drop (m.payload.length - 16)) hn (by rw [List.length_take]; omega)
  obtain ⟨y, h3, _⟩ := andThen_iff (f := fun plain => .ok { m with payload := plain }) h1 m
  refine ⟨y, h3, fun h => absurd h hs, fun out => ?_⟩
  obtain ⟨y', h3', h4⟩ := andThen_iff (f := fun plain => .ok { m with payload := plain }) h1 out
  rw [h3] at h3'
  cases h3'
  rw [h4]
  constructor
  · rintro ⟨p, hp, hf⟩
    cases Except.ok.inj hf
    have e := (h2 p).1 hp
    have len : m.payload.length - 16 = p.length := by
      rw [← hA.fst (nonceNew iv seq) (makeTls12Aad seq m.typ m.version (m.payload.length - 16)) p hn, e, List.length_take]
      omega
    refine ⟨rfl, rfl, ?_⟩
    have e' : Spec.Tls.chachaPoly key (Spec.Tls.nonce iv seq) (Spec.Tls.aad12 seq m.typ m.version (m.payload.length - 16)) p =
      _ := e
    unfold Spec.Tls.Record12Chacha
    dsimp only
    rw [← len, e', List.take_append_drop]
  · rintro ⟨g1, g2, g3⟩
    obtain ⟨t, v, p⟩ := out
    dsimp only at g1 g2 g3
    subst g1 g2
    refine ⟨p, (h2 p).2 ?_, rfl⟩
    have ht := hA.snd (Spec.Tls.nonce iv seq) (Spec.Tls.aad12 seq m.typ m.version p.length) p hn
    have hf := hA.fst (Spec.Tls.nonce iv seq) (Spec.Tls.aad12 seq m.typ m.version p.length) p hn
    obtain ⟨e1, e2⟩ := split_body g3 ht
    have len : m.payload.length - 16 = p.length := by
      have := congrArg List.length g3
      rw [List.length_append] at this
      omega
    rw [e1, e2, len]
    rfl

/-- **C52** TLS 1.2 with ChaCha20-Poly1305: the peer recovers the payload, the type and the version. -/
theorem C52_chacha12_round_trip (b b' : Backend) (key iv : Bytes) (hk : key.length = 32) (hiv : iv.length = 12) (m : Message)
    (seq : BitVec 64) (hm : m.payload.length < 2 ^ 32 - 16) :
    ∃ rec, ((TlsAead.chacha b.stream key).bind fun A => chachaTls12Encrypt A iv m seq) = some rec ∧
      ((TlsAead.chacha b'.stream key).bind fun A => chachaTls12Decrypt A iv rec seq) = some (.ok m) := by
  obtain ⟨body, h1, h2, h3⟩ := C52_chacha12_encrypt b key iv hk hiv m seq (by omega)
  refine ⟨_, h1, ?_⟩
  obtain ⟨r, g1, _, g2⟩ := C52_chacha12_decrypt b' key iv hk hiv ⟨m.typ, m.version, body⟩ seq (by dsimp only; omega)
  rw [g1, (g2 m).2 ⟨rfl, rfl, h3⟩]

/-- RFC 5246, 6.2.1 limits the plaintext of a record to 2^14 bytes.  The ChaCha20-Poly1305 decrypter does not: it gives a longer
plaintext, where the AES-GCM one answers `PeerSentOversizedRecord` (`C52_gcm12_decrypt`). -/
theorem C52_chacha12_oversized (b : Backend) (key iv : Bytes) (hk : key.length = 32) (hiv : iv.length = 12) (seq : BitVec 64) :
    ∃ rec out, ((TlsAead.chacha b.stream key).bind fun A => chachaTls12Decrypt A iv rec seq) = some (.ok out) ∧
      out.payload.length > 16384 := by
  obtain ⟨rec, _, h⟩ := C52_chacha12_round_trip b b key iv hk hiv ⟨23#8, 0x0303#16, List.replicate 16385 0#8⟩ seq
    (by dsimp only; rw [List.length_replicate]; omega)
  exact ⟨rec, _, h, by dsimp only; rw [List.length_replicate]; omega⟩

/-- The IV of the sender: the salt, and eight bytes of the key block. -/
theorem C52_gcm_iv (salt explicit : Bytes) :
    gcmIv salt explicit = if salt.length = 4 ∧ explicit.length = 8 then some (salt ++ explicit) else none := rfl

/-- The nonce of a TLS 1.2 AES-GCM record starts with the salt. -/
theorem gcm_nonce (salt explicit : Bytes) (seq : BitVec 64) (hs : salt.length = 4) (he : explicit.length = 8) :
    Spec.Tls.nonce (salt ++ explicit) seq = salt ++ (Spec.Tls.nonce (salt ++ explicit) seq).drop 4 ∧
      ((Spec.Tls.nonce (salt ++ explicit) seq).drop 4).length = 8 := by
  have e : Spec.Tls.nonce (salt ++ explicit) seq = salt ++ List.zipWith (· ^^^ ·) explicit (toBE 8 seq.toNat) := by
    rw [Spec.Tls.nonce, List.zipWith_append (by simp [hs])]
    congr 1
    match salt, hs with
    | [a, b, c, d], _ => simp [List.replicate]
  rw [e, List.drop_left' hs]
  exact ⟨rfl, by simp [he]⟩

/-- **C52** TLS 1.2 with AES-GCM: what `encrypt` sends is RFC 5288's record, with the explicit part of a nonce that differs for
every sequence number (`C52_nonce_unique`). -/
theorem C52_gcm12_encrypt (w : Bool) (key salt explicit : Bytes) (hk : key.length = 16 ∨ key.length = 32)
    (hs : salt.length = 4) (he : explicit.length = 8) (m : Message) (seq : BitVec 64) (hm : m.payload.length < 2 ^ 32) :
    ∃ body, ((gcmIv salt explicit).bind fun iv => (TlsAead.gcm w key).bind fun A => gcmTls12Encrypt A iv m seq) =
        some ⟨m.typ, m.version, body⟩ ∧
      body.length = m.payload.length + 24 ∧
      salt ++ body.take 8 = Spec.Tls.nonce (salt ++ explicit) seq ∧
      Spec.Tls.Record12Gcm (Spec.Tls.aesGcm key) salt seq m.typ m.version m.payload body := by
  obtain ⟨A, h1, hA⟩ := gcmCipher w key hk
  have hn := nonce_length (salt ++ explicit) seq (by rw [List.length_append]; omega)
  obtain ⟨n1, n2⟩ := gcm_nonce salt explicit seq hs he
  refine ⟨_, ?_, ?_, ?_, (Spec.Tls.nonce (salt ++ explicit) seq).drop 4, n2, rfl⟩
  · rw [gcmIv, if_pos ⟨hs, he⟩, Option.bind_some, h1, Option.bind_some, ← n1]
    unfold gcmTls12Encrypt
    dsimp only
    rw [hA.encrypt (nonceNew (salt ++ explicit) seq) _ _ hn hm]
    rfl
  · rw [← n1, List.length_append, List.length_append, n2, hA.fst _ _ _ hn, hA.snd _ _ _ hn]
    omega
  · rw [← n1, List.append_assoc, List.take_left' n2, ← n1]

/-- **C52** TLS 1.2 with AES-GCM: `decrypt` accepts a record exactly when it is RFC 5288's record, under this sequence number,
type and version and any explicit nonce, for some content of at most 2^14 bytes, and gives that content. -/
theorem C52_gcm12_decrypt (w : Bool) (key salt : Bytes) (hk : key.length = 16 ∨ key.length = 32)
    (hs : salt.length = 4) (m : Message) (seq : BitVec 64) (hm : m.payload.length < 2 ^ 32) :
    ∃ r, ((TlsAead.gcm w key).bind fun A => gcmTls12Decrypt A salt m seq) = some r ∧
      (m.payload.length < 24 → r = .error .DecryptError) ∧
      ∀ out, r = .ok out ↔ out.typ = m.typ ∧ out.version = m.version ∧ out.payload.length ≤ 16384 ∧
        Spec.Tls.Record12Gcm (Spec.Tls.aesGcm key) salt seq m.typ m.version out.payload m.payload := by
  obtain ⟨A, hA0, hA⟩ := gcmCipher w key hk
  rw [hA0, Option.bind_some]
  unfold gcmTls12Decrypt
  dsimp only
  by_cases hshort : m.payload.length < 24
  · rw [if_pos hshort]
    refine ⟨_, rfl, fun _ => rfl, fun out => ⟨fun h => (by cases h), ?_⟩⟩
    rintro ⟨_, _, _, ex, hex, h⟩
    have hn : (salt ++ ex).length = 12 := by rw [List.length_append]; omega
    have := congrArg List.length h
    rw [List.length_append, List.length_append, hA.snd _ _ _ hn] at this
    omega
  rw [if_neg hshort]
  have hn : (salt ++ m.payload.take 8).length = 12 := by rw [List.length_append, List.length_take]; omega
  have l1 : (m.payload.drop 8).length - 16 = m.payload.length - 24 := by rw [List.length_drop]; omega
  rw [l1]
  obtain ⟨x, h1, h2⟩ := hA.decrypt (salt ++ m.payload.take 8) (makeTls12Aad seq m.typ m.version (m.payload.length - 24))
    ((m.payload.drop 8).take (m.payload.length - 24)) ((m.payload.drop 8).drop (m.payload.length - 24)) hn
    (by rw [List.length_take]; omega)
  generalize hf : (fun plain : Bytes => if m.payload.length - 24 > 16384 then Except.error TlsError.PeerSentOversizedRecord
    else Except.ok { m with payload := (List.drop 8 (m.payload.take 8 ++ plain ++
      (m.payload.drop 8).drop (m.payload.length - 24))).take (m.payload.length - 24) }) = f
  have hf' : ∀ p : Bytes, p.length = m.payload.length - 24 → f p =
      if p.length > 16384 then Except.error TlsError.PeerSentOversizedRecord else Except.ok { m with payload := p } := by
    intro p hp
    rw [← hf]
    dsimp only
    rw [hp, List.append_assoc, List.drop_left' (by rw [List.length_take]; omega), ← hp, List.take_left]
  obtain ⟨y, h3, _⟩ := andThen_iff (f := f) h1 m
  refine ⟨y, h3, fun h => absurd h hshort, fun out => ?_⟩
  obtain ⟨y', h3', h4⟩ := andThen_iff (f := f) h1 out
  rw [h3] at h3'
  cases h3'
  rw [h4]
  constructor
  · rintro ⟨p, hp, hfp⟩
    have e := (h2 p).1 hp
    have len : m.payload.length - 24 = p.length := by
      rw [← hA.fst (salt ++ m.payload.take 8) (makeTls12Aad seq m.typ m.version (m.payload.length - 24)) p hn, e,
        List.length_take, List.length_drop]
      omega
    rw [hf' p len.symm] at hfp
    split at hfp
    · cases hfp
    cases Except.ok.inj hfp
    refine ⟨rfl, rfl, by dsimp only; omega, m.payload.take 8, by rw [List.length_take]; omega, ?_⟩
    have e' : Spec.Tls.aesGcm key (salt ++ m.payload.take 8) (Spec.Tls.aad12 seq m.typ m.version (m.payload.length - 24)) p =
      _ := e
    dsimp only
    rw [← len, e', List.append_assoc, List.take_append_drop, List.take_append_drop]
  · rintro ⟨g1, g2, g3, ex, g4, g5⟩
    obtain ⟨t, v, p⟩ := out
    dsimp only at g1 g2 g3 g5
    subst g1 g2
    have hn' : (salt ++ ex).length = 12 := by rw [List.length_append]; omega
    have ht := hA.snd (salt ++ ex) (Spec.Tls.aad12 seq m.typ m.version p.length) p hn'
    have hfs := hA.fst (salt ++ ex) (Spec.Tls.aad12 seq m.typ m.version p.length) p hn'
    have len : m.payload.length - 24 = p.length := by
      have := congrArg List.length g5
      rw [List.length_append, List.length_append] at this
      omega
    rw [List.append_assoc] at g5
    have t1 : m.payload.take 8 = ex := by rw [g5, List.take_left' g4]
    have t2 := (congrArg (List.drop 8) g5).trans (List.drop_left' g4)
    refine ⟨p, (h2 p).2 ?_, ?_⟩
    · rw [t1, t2, len, List.take_left' hfs, List.drop_left' hfs]
      rfl
    · rw [hf' p len.symm, if_neg (by omega)]

/-- **C52** TLS 1.2 with AES-GCM: the peer, who knows only the salt, recovers the payload, the type and the version. -/
theorem C52_gcm12_round_trip (w w' : Bool) (key salt explicit : Bytes) (hk : key.length = 16 ∨ key.length = 32)
    (hs : salt.length = 4) (he : explicit.length = 8) (m : Message) (seq : BitVec 64) (hm : m.payload.length ≤ 16384) :
    ∃ rec, ((gcmIv salt explicit).bind fun iv => (TlsAead.gcm w key).bind fun A => gcmTls12Encrypt A iv m seq) = some rec ∧
      ((TlsAead.gcm w' key).bind fun A => gcmTls12Decrypt A salt rec seq) = some (.ok m) := by
  obtain ⟨body, h1, h2, _, h3⟩ := C52_gcm12_encrypt w key salt explicit hk hs he m seq (by omega)
  refine ⟨_, h1, ?_⟩
  obtain ⟨r, g1, _, g2⟩ := C52_gcm12_decrypt w' key salt hk hs ⟨m.typ, m.version, body⟩ seq (by dsimp only; omega)
  rw [g1, (g2 m).2 ⟨rfl, rfl, hm, h3⟩]

/-! ### Concrete cases -/

/-- A handshake record under sequence number 5, sent with the AVX2 code and read with the portable one. -/
example : ∃ body, (Suite13.chacha .avx2).encrypt (List.replicate 32 1) (List.replicate 12 2) ⟨22, 0x0303, [1, 0, 0]⟩ 5 =
      some ⟨23#8, 0x0303#16, body⟩ ∧
    (Suite13.chacha .portable).decrypt (List.replicate 32 1) (List.replicate 12 2) ⟨23#8, 0x0303#16, body⟩ 5 =
      some (.ok ⟨22, 0x0304#16, [1, 0, 0]⟩) :=
  C52_tls13_round_trip (.chacha .avx2) (.chacha .portable) (List.replicate 32 1) _ rfl (List.length_replicate ..)
    (List.length_replicate ..) rfl ⟨22, 0x0303, [1, 0, 0]⟩ _ (by decide) (by decide)

/-- The same bytes are refused under sequence number 6. -/
example : (((Suite13.chacha .portable).encrypt (List.replicate 32 1) (List.replicate 12 2) ⟨22, 0x0303, [1, 0, 0]⟩ 5).bind
      fun rec => (Suite13.chacha .portable).decrypt (List.replicate 32 1) (List.replicate 12 2) rec 6) =
    some (.error .DecryptError) := by decide +kernel

/-- Padding is taken off; a record of zeros only is an error. -/
example : intoTls13Unpadded ⟨23, 0x0303, [7, 0, 22, 0, 0, 0]⟩ = .ok ⟨22, 0x0304, [7, 0]⟩ ∧
    intoTls13Unpadded ⟨23, 0x0303, [0, 0]⟩ = .error .IllegalTlsInnerPlaintext := by decide

/-- RFC 8446's construction on bytes. -/
example : Spec.Tls.nonce [1, 2, 3, 4, 5, 6, 7, 8, 9, 10, 11, 12] 0x0102 =
    [1, 2, 3, 4, 5, 6, 7, 8, 9, 10, 11 ^^^ 1, 12 ^^^ 2] := by decide

/-- The theorems for TLS 1.2 apply. -/
example (w : Bool) (seq : BitVec 64) : ∃ rec, ((gcmIv [1, 2, 3, 4] [5, 6, 7, 8, 9, 10, 11, 12]).bind fun iv =>
      (TlsAead.gcm w (List.replicate 16 1)).bind fun A => gcmTls12Encrypt A iv ⟨22, 0x0303, [1, 0, 0]⟩ seq) = some rec ∧
    ((TlsAead.gcm w (List.replicate 16 1)).bind fun A => gcmTls12Decrypt A [1, 2, 3, 4] rec seq) =
      some (.ok ⟨22, 0x0303, [1, 0, 0]⟩) :=
  C52_gcm12_round_trip w w _ _ _ (.inl rfl) rfl rfl _ _ (by decide)

end Verif.Props
