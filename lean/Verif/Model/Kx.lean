import Verif.Model.X25519
import Verif.Model.EcCurves
import Verif.Model.MlKem
import Verif.Model.Rng

/-!
Model of `rustls-graviola/src/kx.rs`, `kx/mlkem.rs` and `kx/hybrid.rs`: the key exchange groups offered to rustls.

rustls' traits `SupportedKxGroup` and `ActiveKeyExchange` are the records `Group` and `Active`; the counter `i` is the number of
earlier calls of the random source.  `ffdhe_group`, `fips` and `usable_for_version` are left out.
-/
namespace Verif.Kx
open Verif

/-- The errors of rustls used here; `InvalidKeyShare` is `PeerMisbehaved::InvalidKeyShare`. -/
inductive KxError
  | GetRandomFailed
  | FailedToGetRandomBytes
  | InvalidKeyShare
deriving DecidableEq

/-- No value: an error, or `stuck`: a panic, or ML-KEM's rejection sampling has outlasted its fuel. -/
inductive Fault
  | err (e : KxError)
  | stuck
deriving DecidableEq

abbrev KR (α : Type) := Except Fault α

/-- `rustls::NamedGroup`. -/
inductive NamedGroup
  | X25519 | secp256r1 | secp384r1 | MLKEM768 | X25519MLKEM768
deriving DecidableEq

/-- `ActiveKeyExchange`. -/
structure Active where
  pubKey : Bytes
  group : NamedGroup
  complete : Bytes → KR Bytes
  hybridComponent : Option (NamedGroup × Bytes)
  completeHybridComponent : Bytes → KR Bytes

/-- `CompletedKeyExchange`. -/
structure Completed where
  group : NamedGroup
  pubKey : Bytes
  secret : Bytes

/-- `SupportedKxGroup`. -/
structure Group where
  name : NamedGroup
  start : RandomSource → Nat → KR (Active × Nat)
  startAndComplete : RandomSource → Nat → Bytes → KR (Completed × Nat)

/-- The default `start_and_complete` of rustls' trait. -/
def defaultStartAndComplete (start : RandomSource → Nat → KR (Active × Nat)) (rng : RandomSource) (i : Nat) (peer : Bytes) :
    KR (Completed × Nat) := do
  let (kx, i) ← start rng i
  let secret ← kx.complete peer
  return (⟨kx.group, kx.pubKey, secret⟩, i)

/-- An exchange that is not hybrid: rustls' defaults for the last two methods. -/
def plain (group : NamedGroup) (pubKey : Bytes) (complete : Bytes → KR Bytes) : Active :=
  ⟨pubKey, group, complete, none, fun _ => .error .stuck⟩

/-- `.map_err(|_| e)` -/
def mapErr {α : Type} (e : KxError) : Except GError α → KR α
  | .ok a => .ok a
  | .error _ => .error (.err e)
def mapFault {α : Type} (e : KxError) : GR α → KR α
  | .ok a => .ok a
  | .error (.err _) => .error (.err e)
  | .error .panic => .error .stuck

/-- `ActiveX25519::complete`, kx.rs:48-53. -/
def x25519Complete (A : X25519.Asm) (k : X25519.PrivateKey) (peer : Bytes) : KR Bytes := do
  let s ← mapErr .InvalidKeyShare (do
    let their ← X25519.PublicKey.tryFromSlice peer
    k.diffieHellman A their)
  return s.asBytes

/-- `X25519::start`, kx.rs:22-31. -/
def x25519Start (A : X25519.Asm) (rng : RandomSource) (i : Nat) : KR (Active × Nat) := do
  let k ← mapErr .GetRandomFailed (X25519.PrivateKey.newRandom rng i)
  return (plain .X25519 (k.publicKey A).asBytes (x25519Complete A k), i + 1)

/-- `X25519`, kx.rs:18-40, 63-65. -/
def x25519 (A : X25519.Asm) : Group := ⟨.X25519, x25519Start A, defaultStartAndComplete (x25519Start A)⟩

/-- `ActiveP256::complete` and `ActiveP384::complete`, kx.rs:100-109, 156-165. -/
def ecComplete {N : Nat} (C : Ec.Curve N) (A : Ec.Asm N) (k : Ec.Scalar N) (peer : Bytes) : KR Bytes := do
  let their ← mapFault .InvalidKeyShare (Ec.PublicKey.fromX962Uncompressed C A peer)
  mapFault .InvalidKeyShare (Ec.diffieHellman C A k their)

/-- `P256::start` and `P384::start`, kx.rs:74-83, 130-139; `new_random` of mid/p256.rs:93-96 and mid/p384.rs:93-96. -/
def ecStart {N : Nat} (name : NamedGroup) (C : Ec.Curve N) (A : Ec.Asm N) (rng : RandomSource) (i : Nat) :
    KR (Active × Nat) := do
  let (k, i) ← mapFault .GetRandomFailed (Ec.generate A rng i)
  let pub ← mapFault .GetRandomFailed (Ec.publicKeyUncompressed C A k)
  return (plain name pub (ecComplete C A k), i)

/-- `P256`, kx.rs:70-92, 119-121. -/
def p256 (A : Ec.Asm 4) : Group :=
  ⟨.secp256r1, ecStart .secp256r1 Ec.curveP256 A, defaultStartAndComplete (ecStart .secp256r1 Ec.curveP256 A)⟩

/-- `P384`, kx.rs:126-148, 175-177. -/
def p384 (A : Ec.Asm 6) : Group :=
  ⟨.secp384r1, ecStart .secp384r1 Ec.curveP384 A, defaultStartAndComplete (ecStart .secp384r1 Ec.curveP384 A)⟩

/-- What the assembly and the fuel of ML-KEM's model are. -/
structure MlKemEnv where
  A : MlKem.Asm
  Gu : Sha3.Lanes → Sha3.Lanes
  fuel : Nat

/-- The value, or stuck. -/
def orStuck {α : Type} : Option α → KR α
  | some a => .ok a
  | none => .error .stuck

/-- `Active::complete`, kx/mlkem.rs:62-69, with `decaps`, mid/mlkem768.rs:61-64. -/
def mlkemComplete (E : MlKemEnv) (dk : MlKem.DecapKey) (peer : Bytes) : KR Bytes :=
  if peer.length ≠ 1088 then .error (.err .InvalidKeyShare)
  else orStuck (MlKem.decapsInternal E.A E.Gu dk peer)

/-- `MlKem768::start`, kx/mlkem.rs:15-24, with `generate`, mid/mlkem768.rs:53-58. -/
def mlkemStart (E : MlKemEnv) (rng : RandomSource) (i : Nat) : KR (Active × Nat) := do
  let seed ← mapErr .FailedToGetRandomBytes (rng i 64)
  let dk ← orStuck (MlKem.keygenInternal E.A E.Gu E.fuel seed)
  return (plain .MLKEM768 (MlKem.encapAsBytes dk.ekPke) (mlkemComplete E dk), i + 1)

/-- `EncapKey::from_bytes(..).map_err(|_| INVALID_KEY_SHARE)`. -/
def mlkemImport (E : MlKemEnv) (share : Bytes) : KR MlKem.EncapKey :=
  if share.length ≠ 1184 then .error (.err .InvalidKeyShare)
  else match MlKem.encapFromBytes E.A E.fuel share with
    | none => .error .stuck
    | some none => .error (.err .InvalidKeyShare)
    | some (some ek) => .ok ek

/-- `MlKem768::start_and_complete`, kx/mlkem.rs:26-41, with `encaps`, mid/mlkem768.rs:246-251. -/
def mlkemStartAndComplete (E : MlKemEnv) (rng : RandomSource) (i : Nat) (share : Bytes) : KR (Completed × Nat) := do
  let ek ← mlkemImport E share
  let m ← mapErr .FailedToGetRandomBytes (rng i 32)
  let (secret, ciphertext) ← orStuck (MlKem.encapsInternal E.A E.Gu ek m)
  return (⟨.MLKEM768, ciphertext, secret⟩, i + 1)

/-- `MlKem768`, kx/mlkem.rs:7-54. -/
def mlkem (E : MlKemEnv) : Group := ⟨.MLKEM768, mlkemStart E, mlkemStartAndComplete E⟩

/-! ### hybrid.rs -/

/-- `Layout`, hybrid.rs:134-150. -/
structure Layout where
  classicalLen : Nat
  pqClientLen : Nat
  pqServerLen : Nat
  pqFirst : Bool

/-- `Layout::split`, hybrid.rs:162-181: the post-quantum and the classical share. -/
def Layout.split (L : Layout) (share : Bytes) (pqLen : Nat) : Option (Bytes × Bytes) :=
  if share.length ≠ L.classicalLen + pqLen then none
  else if L.pqFirst then some (share.take pqLen, share.drop pqLen)
  else some (share.drop L.classicalLen, share.take L.classicalLen)

/-- `Layout::concat`, hybrid.rs:183-188. -/
def Layout.concat (L : Layout) (pq classical : Bytes) : Bytes :=
  if L.pqFirst then pq ++ classical else classical ++ pq

/-- `.ok_or(INVALID_KEY_SHARE)` -/
def orInvalid {α : Type} : Option α → KR α
  | some a => .ok a
  | none => .error (.err .InvalidKeyShare)

/-- `Hybrid`, hybrid.rs:6-12. -/
structure Hybrid where
  classical : Group
  postQuantum : Group
  name : NamedGroup
  layout : Layout

/-- `ActiveHybrid::complete`, hybrid.rs:96-107. -/
def hybridComplete (L : Layout) (classical postQuantum : Active) (peer : Bytes) : KR Bytes := do
  let (pqShare, clShare) ← orInvalid (L.split peer L.pqServerLen)
  let cl ← classical.complete clShare
  let pq ← postQuantum.complete pqShare
  return L.concat pq cl

/-- `Hybrid::start`, hybrid.rs:15-30, and the other methods of `ActiveHybrid`, hybrid.rs:110-131. -/
def hybridStart (H : Hybrid) (rng : RandomSource) (i : Nat) : KR (Active × Nat) := do
  let (classical, i) ← H.classical.start rng i
  let (postQuantum, i) ← H.postQuantum.start rng i
  return (⟨H.layout.concat postQuantum.pubKey classical.pubKey, H.name, hybridComplete H.layout classical postQuantum,
    some (classical.group, classical.pubKey), classical.complete⟩, i)

/-- `Hybrid::start_and_complete`, hybrid.rs:32-51. -/
def hybridStartAndComplete (H : Hybrid) (rng : RandomSource) (i : Nat) (share : Bytes) : KR (Completed × Nat) := do
  let (pqShare, clShare) ← orInvalid (H.layout.split share H.layout.pqClientLen)
  let (cl, i) ← H.classical.startAndComplete rng i clShare
  let (pq, i) ← H.postQuantum.startAndComplete rng i pqShare
  return (⟨H.name, H.layout.concat pq.pubKey cl.pubKey, H.layout.concat pq.secret cl.secret⟩, i)

/-- `impl SupportedKxGroup for Hybrid`, hybrid.rs:14-85. -/
def Hybrid.group (H : Hybrid) : Group := ⟨H.name, hybridStart H, hybridStartAndComplete H⟩

/-- `X25519MLKEM768`, kx.rs:181-191. -/
def x25519mlkem768 (A : X25519.Asm) (E : MlKemEnv) : Hybrid :=
  ⟨x25519 A, mlkem E, .X25519MLKEM768, ⟨32, 1184, 1088, true⟩⟩

/-- `ALL_KX_GROUPS`, kx.rs:10-15. -/
def allKxGroups (A : X25519.Asm) (E : MlKemEnv) (A4 : Ec.Asm 4) (A6 : Ec.Asm 6) : List Group :=
  [(x25519mlkem768 A E).group, x25519 A, p256 A4, p384 A6]

end Verif.Kx
