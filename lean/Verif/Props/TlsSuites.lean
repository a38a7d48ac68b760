import Verif.Model.TlsSuites
import Verif.Spec.TlsSuites
import Verif.Props.Sha2
import Verif.Props.TlsAead
import Verif.Props.TlsSign

/-!
C68: the hashes, HMACs and cipher suites of the TLS provider (`rustls-graviola/src/hash.rs`, `hmac.rs`, `suites.rs`).
-/
namespace Verif.Props
open Verif Verif.TlsAead Verif.TlsSuites

/-! ### Transcript hashes

rustls keeps several hash contexts, forks them and asks for digests on the way (`fork_finish`).  A history is a list of calls; contexts are numbered in
the order in which they come to be. -/

inductive HashCall
  | start
  | update (ctx : Nat) (data : Bytes)
  | fork (ctx : Nat)
  | forkFinish (ctx : Nat)
  | finish (ctx : Nat)

/-- The contexts (`none` after `finish`, which takes its context away) and the digests given so far, last first. -/
structure HashSt (σ : Type) where
  live : List (Option σ)
  out : List Bytes

/-- One call, on contexts with these operations.  A call on a context that does not exist cannot be written in Rust; here nothing happens. -/
def hashCall {σ : Type} (new : σ) (update : σ → Bytes → Option σ) (finish : σ → Option Bytes) (s : HashSt σ) : HashCall → Option (HashSt σ)
  | .start => some ⟨s.live ++ [some new], s.out⟩
  | .update i d => match s.live[i]? with
    | some (some c) => (update c d).map fun c => ⟨s.live.set i (some c), s.out⟩
    | _ => some s
  | .fork i => match s.live[i]? with
    | some (some c) => some ⟨s.live ++ [some c], s.out⟩
    | _ => some s
  | .forkFinish i => match s.live[i]? with
    | some (some c) => (finish c).map fun d => ⟨s.live, d :: s.out⟩
    | _ => some s
  | .finish i => match s.live[i]? with
    | some (some c) => (finish c).map fun d => ⟨s.live.set i none, d :: s.out⟩
    | _ => some s

/-- A history of calls to the provider. -/
def providerHistory (h : Hash) (calls : List HashCall) : Option (List Bytes) :=
  (calls.foldlM (hashCall h.start h.update h.finish) ⟨[], []⟩).map HashSt.out

/-- The same history, where a context is just the bytes it has been given, and a digest is the standard's hash of them. -/
def idealHistory (H : Bytes → Bytes) (calls : List HashCall) : Option (List Bytes) :=
  (calls.foldlM (hashCall [] (fun m d => some (m ++ d)) (fun m => some (H m))) ⟨[], []⟩).map HashSt.out

/-- The bytes given in a call. -/
def HashCall.data : HashCall → Bytes
  | .update _ d => d
  | _ => []

/-- Contexts correspond to byte strings of at most `n` bytes. -/
def Tracks {σ : Type} (Rel : σ → Bytes → Prop) (n : Nat) (a : HashSt σ) (b : HashSt Bytes) : Prop :=
  a.out = b.out ∧ a.live.length = b.live.length ∧ ∀ i : Nat, match a.live[i]?, b.live[i]? with
    | some (some c), some (some m) => Rel c m ∧ m.length ≤ n
    | some none, some none => True
    | none, none => True
    | _, _ => False

theorem Tracks.append {σ : Type} {Rel : σ → Bytes → Prop} {n : Nat} {a : HashSt σ} {b : HashSt Bytes} (h : Tracks Rel n a b) {c : σ} {m : Bytes}
    (hc : Rel c m) (hm : m.length ≤ n) : Tracks Rel n ⟨a.live ++ [some c], a.out⟩ ⟨b.live ++ [some m], b.out⟩ := by
  refine ⟨h.1, by simp only [List.length_append, h.2.1, List.length_cons, List.length_nil], fun i => ?_⟩
  have hi := h.2.2 i
  have hl := h.2.1
  by_cases g : i < a.live.length
  · simp only [List.getElem?_append_left g, List.getElem?_append_left (hl ▸ g)]
    exact hi
  · by_cases e : i = a.live.length
    · subst e
      simp only [List.getElem?_concat_length]
      rw [hl, List.getElem?_concat_length]
      exact ⟨hc, hm⟩
    · rw [List.getElem?_eq_none (by simp only [List.length_append, List.length_cons, List.length_nil]; omega),
        List.getElem?_eq_none (by simp only [List.length_append, List.length_cons, List.length_nil]; omega)]
      trivial

theorem Tracks.set {σ : Type} {Rel : σ → Bytes → Prop} {n n' : Nat} {a : HashSt σ} {b : HashSt Bytes} (h : Tracks Rel n a b) (hn : n ≤ n') (i : Nat)
    (x : Option σ) (y : Option Bytes) (out : List Bytes)
    (hxy : match x, y with
      | some c, some m => Rel c m ∧ m.length ≤ n'
      | none, none => True
      | _, _ => False) : Tracks Rel n' ⟨a.live.set i x, out⟩ ⟨b.live.set i y, out⟩ := by
  refine ⟨rfl, by simp only [List.length_set, h.2.1], fun j => ?_⟩
  have hj := h.2.2 j
  have hl := h.2.1
  simp only [List.getElem?_set]
  by_cases e : i = j
  · subst e
    simp only [if_true]
    by_cases g : i < a.live.length
    · rw [if_pos g, if_pos (hl ▸ g)]
      revert hxy
      cases x <;> cases y <;> exact id
    · rw [if_neg g, if_neg (hl ▸ g)]
      trivial
  · rw [if_neg e, if_neg e]
    revert hj
    rcases a.live[j]? with _ | _ | c <;> rcases b.live[j]? with _ | _ | m <;> try exact id
    exact fun h => ⟨h.1, Nat.le_trans h.2 hn⟩

theorem Tracks.mono {σ : Type} {Rel : σ → Bytes → Prop} {n n' : Nat} {a : HashSt σ} {b : HashSt Bytes} (h : Tracks Rel n a b) (hn : n ≤ n') :
    Tracks Rel n' a b := by
  refine ⟨h.1, h.2.1, fun j => ?_⟩
  have hj := h.2.2 j
  revert hj
  rcases a.live[j]? with _ | _ | c <;> rcases b.live[j]? with _ | _ | m <;> try exact id
  exact fun h => ⟨h.1, Nat.le_trans h.2 hn⟩

theorem hashCall_ok {F : Hmac.HashFn} {H : Bytes → Bytes} {limit : Nat} (C : Hmac.Correct F H limit) {n : Nat} {a : HashSt F.Ctx} {b : HashSt Bytes}
    (h : Tracks C.Rel n a b) (call : HashCall) (hn : n + call.data.length < limit) :
    ∃ a' b', hashCall F.new F.update F.finish a call = some a' ∧
      hashCall [] (fun m d => some (m ++ d)) (fun m => some (H m)) b call = some b' ∧ Tracks C.Rel (n + call.data.length) a' b' := by
  cases call with
  | start => exact ⟨_, _, rfl, rfl, h.append C.new (Nat.zero_le _)⟩
  | update i d =>
    have hi := h.2.2 i
    simp only [hashCall]
    revert hi
    rcases a.live[i]? with _ | _ | c <;> rcases b.live[i]? with _ | _ | m <;> intro hi
    · exact ⟨_, _, rfl, rfl, h.mono (Nat.le_add_right _ _)⟩
    · exact hi.elim
    · exact hi.elim
    · exact hi.elim
    · exact ⟨_, _, rfl, rfl, h.mono (Nat.le_add_right _ _)⟩
    · exact hi.elim
    · exact hi.elim
    · exact hi.elim
    · obtain ⟨c', e, r⟩ := C.update c m d hi.1
      refine ⟨⟨a.live.set i (some c'), a.out⟩, ⟨b.live.set i (some (m ++ d)), b.out⟩, congrArg (Option.map _) e, rfl, ?_⟩
      rw [h.1]
      refine h.set (Nat.le_add_right _ _) i (some c') (some (m ++ d)) b.out ⟨r, ?_⟩
      rw [List.length_append]
      have := hi.2
      show _ ≤ n + d.length
      omega
  | fork i =>
    have hi := h.2.2 i
    simp only [hashCall]
    revert hi
    rcases a.live[i]? with _ | _ | c <;> rcases b.live[i]? with _ | _ | m <;> intro hi
    · exact ⟨_, _, rfl, rfl, h⟩
    · exact hi.elim
    · exact hi.elim
    · exact hi.elim
    · exact ⟨_, _, rfl, rfl, h⟩
    · exact hi.elim
    · exact hi.elim
    · exact hi.elim
    · exact ⟨_, _, rfl, rfl, h.append hi.1 hi.2⟩
  | forkFinish i =>
    have hi := h.2.2 i
    simp only [hashCall]
    revert hi
    rcases a.live[i]? with _ | _ | c <;> rcases b.live[i]? with _ | _ | m <;> intro hi
    · exact ⟨_, _, rfl, rfl, h⟩
    · exact hi.elim
    · exact hi.elim
    · exact hi.elim
    · exact ⟨_, _, rfl, rfl, h⟩
    · exact hi.elim
    · exact hi.elim
    · exact hi.elim
    · have e : F.finish c = some (H m) := by
        rw [C.finish c m hi.1, if_pos (Nat.lt_of_le_of_lt hi.2 (Nat.lt_of_le_of_lt (Nat.le_add_right _ _) hn))]
      exact ⟨⟨a.live, H m :: a.out⟩, ⟨b.live, H m :: b.out⟩, congrArg (Option.map _) e, rfl, congrArg (H m :: ·) h.1, h.2⟩
  | finish i =>
    have hi := h.2.2 i
    simp only [hashCall]
    revert hi
    rcases a.live[i]? with _ | _ | c <;> rcases b.live[i]? with _ | _ | m <;> intro hi
    · exact ⟨_, _, rfl, rfl, h⟩
    · exact hi.elim
    · exact hi.elim
    · exact hi.elim
    · exact ⟨_, _, rfl, rfl, h⟩
    · exact hi.elim
    · exact hi.elim
    · exact hi.elim
    · have e : F.finish c = some (H m) := by
        rw [C.finish c m hi.1, if_pos (Nat.lt_of_le_of_lt hi.2 (Nat.lt_of_le_of_lt (Nat.le_add_right _ _) hn))]
      refine ⟨⟨a.live.set i none, H m :: a.out⟩, ⟨b.live.set i none, H m :: b.out⟩, congrArg (Option.map _) e, rfl, ?_⟩
      rw [h.1]
      exact h.set (Nat.le_refl _) i none none (H m :: b.out) trivial

theorem history_ok {F : Hmac.HashFn} {H : Bytes → Bytes} {limit : Nat} (C : Hmac.Correct F H limit) (calls : List HashCall) :
    ∀ (n : Nat) (a : HashSt F.Ctx) (b : HashSt Bytes), Tracks C.Rel n a b → n + (calls.map HashCall.data).flatten.length < limit →
      (calls.foldlM (hashCall F.new F.update F.finish) a).map HashSt.out =
        (calls.foldlM (hashCall [] (fun m d => some (m ++ d)) (fun m => some (H m))) b).map HashSt.out := by
  induction calls with
  | nil =>
    intro n a b h _
    exact congrArg some h.1
  | cons call calls ih =>
    intro n a b h hn
    rw [List.map_cons, List.flatten_cons, List.length_append] at hn
    obtain ⟨a', b', e1, e2, h'⟩ := hashCall_ok C h call (by omega)
    rw [List.foldlM_cons, List.foldlM_cons, e1, e2]
    exact ih _ a' b' h' (by omega)

theorem tracks_nil {σ : Type} (Rel : σ → Bytes → Prop) : Tracks Rel 0 ⟨[], []⟩ ⟨[], []⟩ := ⟨rfl, rfl, fun _ => trivial⟩

/-- **C68** The transcript hashes: whatever contexts are started, fed, forked and finished in whatever order, every digest is that of the bytes that
went into its context, and into those it was forked from before the fork. -/
theorem C68_transcript (calls : List HashCall) (hn : (calls.map HashCall.data).flatten.length < 2 ^ 61) :
    providerHistory Sha256 calls = idealHistory Spec.Sha2.sha256 calls ∧ providerHistory Sha384 calls = idealHistory Spec.Sha2.sha384 calls :=
  ⟨history_ok Hmac.correct256 calls 0 _ _ (tracks_nil _) (by omega), history_ok Hmac.correct384 calls 0 _ _ (tracks_nil _) (by omega)⟩

/-- The ideal history of a fork: the digest of the branch, then that of the trunk. -/
example (H : Bytes → Bytes) (a b c : Bytes) :
    idealHistory H [.start, .update 0 a, .fork 0, .update 0 b, .update 1 c, .forkFinish 1, .finish 0, .forkFinish 0] =
      some [H (a ++ b), H (a ++ c)] := rfl

/-- **C68** A key of the HMAC provider can sign any number of messages, each given in parts. -/
theorem C68_hmac {F H b o l} (hF : IsHash F H b o l) (key : Bytes) (hk : key.length < l) :
    ∃ k, Hmac.new F key = some k ∧ ∀ (first : Bytes) (middle : List Bytes) (last : Bytes),
      b + (first ++ middle.flatten ++ last).length < l →
      signConcat k first middle last = some (Spec.Hmac.hmac H b key (first ++ middle.flatten ++ last)) := by
  obtain ⟨⟨C⟩, rfl, rfl, ho⟩ := isHash_correct hF
  obtain ⟨k, e, _⟩ := Hmac.new_ok C key hk
  refine ⟨k, e, fun first middle last hm => ?_⟩
  have hp : ([first] ++ middle ++ [last]).flatten = first ++ middle.flatten ++ last := by
    simp only [List.flatten_append, List.flatten_cons, List.flatten_nil, List.append_nil]
  have h := Hmac.macParts_ok C key ([first] ++ middle ++ [last]) hk (by rw [hp]; exact hm) ho
  rw [hp, Hmac.macParts, e] at h
  rw [← h, signConcat]
  simp only [List.foldlM_append, List.foldlM_cons, List.foldlM_nil, Option.bind_eq_bind, Option.pure_def, Option.bind_some, bind_assoc,
    Option.bind_assoc, Option.bind_fun_some]

/-! ### Cipher suites -/

/-- The kind of authentication that a signature scheme gives, RFC 8446, 4.2.3.  Ed25519 and Ed448 go with suites for ECDSA, RFC 8422, 5.1.3 and 2. -/
def schemeAuth : TlsSign.Scheme → Option Spec.TlsSuites.Auth
  | .ECDSA_NISTP256_SHA256 | .ECDSA_NISTP384_SHA384 | .ECDSA_NISTP521_SHA512 | .ECDSA_SHA1_Legacy | .ED25519 | .ED448 => some .ecdsa
  | .RSA_PKCS1_SHA1 | .RSA_PKCS1_SHA256 | .RSA_PKCS1_SHA384 | .RSA_PKCS1_SHA512 | .RSA_PSS_SHA256 | .RSA_PSS_SHA384 | .RSA_PSS_SHA512 => some .rsa
  | _ => none

/-- The suite does what its name means: the hash and the HMAC of the key schedule, the AEAD, the lengths of its keys, the records of the version of
TLS it is for, how often a key may be used, and which signatures go with it.  `b` and `w` range over the implementations of ChaCha20 and AES-GCM. -/
structure Conforms (s : Suite) (r : Spec.TlsSuites.Meaning) : Prop where
  hash : ∀ data : Bytes, data.length < 2 ^ 61 → s.hashProvider.hash data = some (r.hash data)
  transcript : ∀ calls, (calls.map HashCall.data).flatten.length < 2 ^ 61 → providerHistory s.hashProvider calls = idealHistory r.hash calls
  outputLen : s.hashProvider.outputLen = r.out ∧ s.hmac.hashOutputLen = r.out ∧ s.hmac.tagLen = r.out ∧ ∀ data, (r.hash data).length = r.out
  hmac : ∀ key : Bytes, key.length < 2 ^ 61 → ∃ k, s.hmac.withKey key = some k ∧ ∀ (first : Bytes) (middle : List Bytes) (last : Bytes),
    r.block + (first ++ middle.flatten ++ last).length < 2 ^ 61 →
      signConcat k first middle last = some (Spec.Hmac.hmac r.hash r.block key (first ++ middle.flatten ++ last))
  keyLen : s.aeadAlg.keyLen = r.keyLen
  shape : s.aeadAlg.keyBlockShape = if r.isGcm then ⟨r.keyLen, 4, 8⟩ else ⟨r.keyLen, 12, 0⟩
  limit : s.confidentialityLimit ≤ r.records
  version : s.tls12.isNone = r.auth.isNone
  sign : ∀ t ∈ s.tls12, ∀ scheme ∈ t.sign, schemeAuth scheme = r.auth
  seal13 : ∀ (b : Backend) (w : Bool) (key iv : Bytes), key.length = r.keyLen → iv.length = 12 → ∀ (m : Message) (seq : BitVec 64),
    m.payload.length < 2 ^ 32 - 1 → ∃ body, s.aeadAlg.encrypt13 b.stream w key iv m seq = some ⟨23#8, 0x0303#16, body⟩ ∧
      Spec.Tls.Record13 (r.aead key) iv seq (m.payload ++ [m.typ]) body
  open13 : ∀ (b : Backend) (w : Bool) (key iv : Bytes), key.length = r.keyLen → iv.length = 12 → ∀ (m : Message) (seq : BitVec 64),
    m.payload.length < 2 ^ 32 → ∃ res, s.aeadAlg.decrypt13 b.stream w key iv m seq = some res ∧
      ∀ out, res = .ok out ↔ out.version = 0x0304#16 ∧ ∃ inner, Spec.Tls.Record13 (r.aead key) iv seq inner m.payload ∧
        Spec.Tls.Inner inner out.payload out.typ ∧ inner.length ≤ 16385 ∧ out.payload.length ≤ 16384
  seal12 : ∀ (b : Backend) (w : Bool) (key iv explicit : Bytes), key.length = r.keyLen → iv.length = s.aeadAlg.keyBlockShape.fixedIvLen →
    explicit.length = s.aeadAlg.keyBlockShape.explicitNonceLen → ∀ (m : Message) (seq : BitVec 64), m.payload.length < 2 ^ 32 →
      ∃ body, s.aeadAlg.encrypt12 b.stream w key iv explicit m seq = some ⟨m.typ, m.version, body⟩ ∧
        if r.isGcm then Spec.Tls.Record12Gcm (r.aead key) iv seq m.typ m.version m.payload body
        else Spec.Tls.Record12Chacha (r.aead key) iv seq m.typ m.version m.payload body
  open12 : ∀ (b : Backend) (w : Bool) (key iv : Bytes), key.length = r.keyLen → iv.length = s.aeadAlg.keyBlockShape.fixedIvLen →
    ∀ (m : Message) (seq : BitVec 64), m.payload.length < 2 ^ 32 → ∃ res, s.aeadAlg.decrypt12 b.stream w key iv m seq = some res ∧
      ∀ out, res = .ok out ↔ out.typ = m.typ ∧ out.version = m.version ∧
        if r.isGcm then out.payload.length ≤ 16384 ∧ Spec.Tls.Record12Gcm (r.aead key) iv seq m.typ m.version out.payload m.payload
        else Spec.Tls.Record12Chacha (r.aead key) iv seq m.typ m.version out.payload m.payload
  extract : ∀ key iv : Bytes, s.aeadAlg.extractKeys13 key iv = some
    (if r.isGcm then if r.keyLen = 16 then .Aes128Gcm key iv else .Aes256Gcm key iv else .Chacha20Poly1305 key iv)

theorem one_shot_ok {F H b o l} (hF : IsHash F H b o l) (data : Bytes) (h : data.length < l) :
    (F.update F.new data).bind F.finish = some (H data) := by
  obtain ⟨⟨C⟩, _⟩ := isHash_correct hF
  obtain ⟨c, e, r⟩ := C.update F.new [] data C.new
  rw [e]
  have := C.finish c _ r
  rw [List.nil_append, if_pos h] at this
  exact this

theorem conforms_gcm {name : String} {h : Hash} {hm : HmacAlg} {H : Bytes → Bytes} {b o n l : Nat} (hF : IsHash h.F H b o l) (hl : 2 ^ 61 ≤ l)
    (hmF : hm = ⟨h.F, o, o⟩) (ho : h.outputLen = o) (hn : n = 16 ∨ n = 32) {t : Option Tls12Part} {a : Option Spec.TlsSuites.Auth}
    (hv : t.isNone = a.isNone) (hs : ∀ p ∈ t, ∀ scheme ∈ p.sign, schemeAuth scheme = a) :
    Conforms ⟨name, h, 2 ^ 24, hm, .TlsAesGcm n, t⟩ ⟨a, Spec.Tls.aesGcm, n, true, H, b, o, 23726566⟩ where
  hash data hd := one_shot_ok hF data (by omega)
  transcript calls hc := by
    obtain ⟨⟨C⟩, _⟩ := isHash_correct hF
    exact history_ok C calls 0 _ _ (tracks_nil _) (by omega)
  outputLen := by
    subst hmF
    obtain ⟨⟨C⟩, _, e, _⟩ := isHash_correct hF
    exact ⟨ho, rfl, rfl, fun data => e ▸ C.outLen data⟩
  hmac key hk := by
    subst hmF
    obtain ⟨k, e, g⟩ := C68_hmac hF key (by omega)
    exact ⟨k, e, fun first middle last hm => g first middle last (by dsimp only at hm; omega)⟩
  keyLen := rfl
  shape := rfl
  limit := (by decide : 2 ^ 24 ≤ 23726566)
  version := hv
  sign := hs
  seal13 c w key iv hk hiv m seq hm := by
    obtain ⟨body, h1, _, h2⟩ := C52_tls13_encrypt (.gcm w) key iv (by simp only [Suite13.keyOk]; dsimp only at hk; omega) hiv m seq hm
    exact ⟨body, h1, h2⟩
  open13 c w key iv hk hiv m seq hm := by
    obtain ⟨r, h1, _, h2⟩ := C52_tls13_decrypt (.gcm w) key iv (by simp only [Suite13.keyOk]; dsimp only at hk; omega) hiv m seq hm
    exact ⟨r, h1, h2⟩
  seal12 c w key iv explicit hk hiv he m seq hm := by
    obtain ⟨body, h1, _, _, h2⟩ := C52_gcm12_encrypt w key iv explicit (by dsimp only at hk; omega) hiv he m seq hm
    exact ⟨body, h1, h2⟩
  open12 c w key iv hk hiv m seq hm := by
    obtain ⟨r, h1, _, h2⟩ := C52_gcm12_decrypt w key iv (by dsimp only at hk; omega) hiv m seq hm
    exact ⟨r, (if_pos hiv).trans h1, h2⟩
  extract key iv := by
    rcases hn with rfl | rfl <;> rfl

theorem conforms_chacha {name : String} {t : Option Tls12Part} {a : Option Spec.TlsSuites.Auth}
    (hv : t.isNone = a.isNone) (hs : ∀ p ∈ t, ∀ scheme ∈ p.sign, schemeAuth scheme = a) :
    Conforms ⟨name, Sha256, 2 ^ 64 - 1, Sha256Hmac, .Chacha20Poly1305, t⟩ (Spec.TlsSuites.chachaSha256 a) where
  hash data hd := one_shot_ok .sha256 data hd
  transcript calls hc := (C68_transcript calls hc).1
  outputLen := ⟨rfl, rfl, rfl, Hmac.correct256.outLen⟩
  hmac key hk := C68_hmac .sha256 key hk
  keyLen := rfl
  shape := rfl
  limit := Nat.sub_le _ _
  version := hv
  sign := hs
  seal13 c w key iv hk hiv m seq hm := by
    obtain ⟨body, h1, _, h2⟩ := C52_tls13_encrypt (.chacha c) key iv hk hiv m seq hm
    exact ⟨body, h1, h2⟩
  open13 c w key iv hk hiv m seq hm := by
    obtain ⟨r, h1, _, h2⟩ := C52_tls13_decrypt (.chacha c) key iv hk hiv m seq hm
    exact ⟨r, h1, h2⟩
  seal12 c w key iv explicit hk hiv he m seq hm := by
    obtain ⟨body, h1, _, h2⟩ := C52_chacha12_encrypt c key iv hk hiv m seq hm
    exact ⟨body, (if_pos hiv).trans h1, h2⟩
  open12 c w key iv hk hiv m seq hm := by
    obtain ⟨r, h1, _, h2⟩ := C52_chacha12_decrypt c key iv hk hiv m seq hm
    exact ⟨r, (if_pos hiv).trans h1, h2⟩
  extract key iv := rfl

theorem ecdsa_auth : ∀ p ∈ some (⟨TLS12_ECDSA_SCHEMES⟩ : Tls12Part), ∀ scheme ∈ p.sign, schemeAuth scheme = some .ecdsa := by
  intro p hp
  cases hp
  decide

theorem rsa_auth : ∀ p ∈ some (⟨TLS12_RSA_SCHEMES⟩ : Tls12Part), ∀ scheme ∈ p.sign, schemeAuth scheme = some .rsa := by
  intro p hp
  cases hp
  decide

/-- **C68** Every cipher suite offered does what its name means. -/
theorem C68_suites : ∀ s ∈ ALL_CIPHER_SUITES, ∃ r, Spec.TlsSuites.meaning s.suite = some r ∧ Conforms s r := by
  intro s hs
  have no : ∀ p ∈ (none : Option Tls12Part), ∀ scheme ∈ p.sign, schemeAuth scheme = none := fun p h => (by cases h)
  have g256 {name t a} (hv : t.isNone = a.isNone) (hs : ∀ p ∈ t, ∀ scheme ∈ p.sign, schemeAuth scheme = a) :
      Conforms ⟨name, Sha256, 2 ^ 24, Sha256Hmac, .TlsAesGcm 16, t⟩ (Spec.TlsSuites.aes128gcmSha256 a) :=
    conforms_gcm (h := Sha256) .sha256 (Nat.le_refl _) rfl rfl (Or.inl rfl) hv hs
  have g384 {name t a} (hv : t.isNone = a.isNone) (hs : ∀ p ∈ t, ∀ scheme ∈ p.sign, schemeAuth scheme = a) :
      Conforms ⟨name, Sha384, 2 ^ 24, Sha384Hmac, .TlsAesGcm 32, t⟩ (Spec.TlsSuites.aes256gcmSha384 a) :=
    conforms_gcm (h := Sha384) .sha384 (by decide) rfl rfl (Or.inr rfl) hv hs
  simp only [ALL_CIPHER_SUITES, List.mem_cons, List.not_mem_nil, or_false] at hs
  rcases hs with rfl | rfl | rfl | rfl | rfl | rfl | rfl | rfl | rfl
  · exact ⟨_, rfl, g256 rfl no⟩
  · exact ⟨_, rfl, g384 rfl no⟩
  · exact ⟨_, rfl, conforms_chacha rfl no⟩
  · exact ⟨_, rfl, g256 rfl ecdsa_auth⟩
  · exact ⟨_, rfl, g384 rfl ecdsa_auth⟩
  · exact ⟨_, rfl, conforms_chacha rfl ecdsa_auth⟩
  · exact ⟨_, rfl, g256 rfl rsa_auth⟩
  · exact ⟨_, rfl, g384 rfl rsa_auth⟩
  · exact ⟨_, rfl, conforms_chacha rfl rsa_auth⟩

/-- **C68** No suite is listed twice. -/
theorem C68_distinct : (ALL_CIPHER_SUITES.map (·.suite)).Nodup := by decide

/-! ### Which key signs under which suite -/

/-- **C68**, in part: under a suite of TLS 1.2 a key signs when the peer offers a scheme that suits both the key and the suite, and not otherwise.
Missing: Ed25519, see `C68_ed25519_tls12`. -/
theorem C68_signers_partial (s : Suite) (hs : s ∈ ALL_CIPHER_SUITES) (r : Spec.TlsSuites.Meaning) (hr : Spec.TlsSuites.meaning s.suite = some r)
    (p : Tls12Part) (hp : s.tls12 = some p) (offered : List TlsSign.Scheme) (key : TlsSign.Key) (hk : ∀ k, key ≠ .ed25519 k) :
    (key.chooseScheme (resolveSigSchemes p offered)).isSome ↔ ∃ scheme ∈ offered, Compatible key scheme ∧ schemeAuth scheme = r.auth := by
  have base : ((key.chooseScheme (resolveSigSchemes p offered)).isSome ↔ ∃ scheme ∈ offered, scheme ∈ p.sign ∧ Compatible key scheme) := by
    rw [Option.isSome_iff_ne_none, Ne, C54_choose_none]
    simp only [resolveSigSchemes, List.mem_filter, List.contains_iff_mem]
    constructor
    · intro h
      by_contra hc
      exact h fun x hx hcx => hc ⟨x, hx.2, hx.1, hcx⟩
    · rintro ⟨x, h1, h2, h3⟩ h
      exact h x ⟨h2, h1⟩ h3
  rw [base]
  have key : ∀ scheme, Compatible key scheme → (scheme ∈ p.sign ↔ schemeAuth scheme = r.auth) := by
    rintro scheme ⟨a, ha, hf⟩
    have ns : scheme ≠ .ED25519 := by
      rintro rfl
      cases ha
      cases key <;> first | exact absurd rfl (hk _) | cases hf
    simp only [ALL_CIPHER_SUITES, List.mem_cons, List.not_mem_nil, or_false] at hs
    rcases hs with rfl | rfl | rfl | rfl | rfl | rfl | rfl | rfl | rfl <;> cases hp <;> cases hr <;> cases scheme <;> cases ha <;>
      first | decide | exact absurd rfl ns
  constructor
  · rintro ⟨x, h1, h2, h3⟩
    exact ⟨x, h1, h3, (key x h3).1 h2⟩
  · rintro ⟨x, h1, h2, h3⟩
    exact ⟨x, h1, (key x h2).2 h3, h2⟩

/-- **C68** What then is signed with is what the key would choose by itself among the offers, if its kind goes with the suite. -/
theorem C68_signers_same (s : Suite) (hs : s ∈ ALL_CIPHER_SUITES) (r : Spec.TlsSuites.Meaning) (hr : Spec.TlsSuites.meaning s.suite = some r)
    (p : Tls12Part) (hp : s.tls12 = some p) (offered : List TlsSign.Scheme) (key : TlsSign.Key) (hk : ∀ k, key ≠ .ed25519 k)
    (hc : ∃ scheme, Compatible key scheme ∧ schemeAuth scheme = r.auth) :
    key.chooseScheme (resolveSigSchemes p offered) = key.chooseScheme offered := by
  obtain ⟨scheme, ⟨a, ha, hf⟩, hx⟩ := hc
  have mem : ∀ x ∈ p.sign, (resolveSigSchemes p offered).contains x = offered.contains x := by
    intro x hx
    rw [Bool.eq_iff_iff]
    simp only [resolveSigSchemes, List.contains_iff_mem, List.mem_filter]
    exact ⟨fun h => h.2, fun h => ⟨hx, h⟩⟩
  cases key with
  | ed25519 k => exact absurd rfl (hk k)
  | rsa k =>
    have e : p.sign = TLS12_RSA_SCHEMES := by
      simp only [ALL_CIPHER_SUITES, List.mem_cons, List.not_mem_nil, or_false] at hs
      rcases hs with rfl | rfl | rfl | rfl | rfl | rfl | rfl | rfl | rfl <;> cases hp <;> cases hr <;> first | rfl | skip
      all_goals cases scheme <;> cases ha <;> first | (exfalso; exact hf) | (revert hx; decide)
    rw [e] at mem
    simp only [TlsSign.Key.chooseScheme]
    rw [mem _ (by decide), mem _ (by decide), mem _ (by decide), mem _ (by decide), mem _ (by decide), mem _ (by decide)]
  | p256 d =>
    have e : p.sign = TLS12_ECDSA_SCHEMES := by
      simp only [ALL_CIPHER_SUITES, List.mem_cons, List.not_mem_nil, or_false] at hs
      rcases hs with rfl | rfl | rfl | rfl | rfl | rfl | rfl | rfl | rfl <;> cases hp <;> cases hr <;> first | rfl | skip
      all_goals cases scheme <;> cases ha <;> first | (exfalso; exact hf) | (revert hx; decide)
    rw [e] at mem
    simp only [TlsSign.Key.chooseScheme]
    rw [mem _ (by decide)]
  | p384 d =>
    have e : p.sign = TLS12_ECDSA_SCHEMES := by
      simp only [ALL_CIPHER_SUITES, List.mem_cons, List.not_mem_nil, or_false] at hs
      rcases hs with rfl | rfl | rfl | rfl | rfl | rfl | rfl | rfl | rfl <;> cases hp <;> cases hr <;> first | rfl | skip
      all_goals cases scheme <;> cases ha <;> first | (exfalso; exact hf) | (revert hx; decide)
    rw [e] at mem
    simp only [TlsSign.Key.chooseScheme]
    rw [mem _ (by decide)]

/-- **C68** The part that fails: an Ed25519 key, which the provider loads and signs with in TLS 1.3, signs under no suite of TLS 1.2, whatever the peer
offers, though Ed25519 goes with the three suites for ECDSA. -/
theorem C68_ed25519_tls12 (k : Ed25519.SigningKey) (s : Suite) (hs : s ∈ ALL_CIPHER_SUITES) (p : Tls12Part) (hp : s.tls12 = some p)
    (offered : List TlsSign.Scheme) : TlsSign.Key.chooseScheme (resolveSigSchemes p offered) (.ed25519 k) = none := by
  rw [C54_choose_none]
  rintro scheme hm ⟨a, ha, hf⟩
  replace hm := (List.mem_filter.1 hm).1
  have : scheme = .ED25519 := by cases scheme <;> cases ha <;> first | rfl | cases hf
  subst this
  simp only [ALL_CIPHER_SUITES, List.mem_cons, List.not_mem_nil, or_false] at hs
  rcases hs with rfl | rfl | rfl | rfl | rfl | rfl | rfl | rfl | rfl <;> cases hp <;> revert hm <;> decide

/-- Such an offer: a suite for ECDSA, a peer that offers Ed25519, and a key for it. -/
example (k : Ed25519.SigningKey) : ∃ s ∈ ALL_CIPHER_SUITES, ∃ r, Spec.TlsSuites.meaning s.suite = some r ∧ s.tls12.isSome ∧
    Compatible (.ed25519 k) .ED25519 ∧ schemeAuth .ED25519 = r.auth :=
  ⟨TLS_ECDHE_ECDSA_WITH_AES_128_GCM_SHA256, by simp [ALL_CIPHER_SUITES], _, rfl, rfl, ⟨_, rfl, trivial⟩, rfl⟩

/-- A P-384 key under a suite for ECDSA and under one for RSA. -/
example (d : Ec.Scalar 6) :
    TlsSign.Key.chooseScheme (resolveSigSchemes ⟨TLS12_ECDSA_SCHEMES⟩ [.RSA_PSS_SHA256, .ECDSA_NISTP384_SHA384]) (.p384 d) = some (.p384 d) ∧
    TlsSign.Key.chooseScheme (resolveSigSchemes ⟨TLS12_RSA_SCHEMES⟩ [.RSA_PSS_SHA256, .ECDSA_NISTP384_SHA384]) (.p384 d) = none := ⟨rfl, rfl⟩

end Verif.Props
