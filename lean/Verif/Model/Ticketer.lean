import Verif.Model.ChaChaPoly
import Verif.Model.Rng

/-!
Model of `rustls-graviola/src/ticketer.rs`: session tickets, and calls from any number of threads.

Outside the model: `TicketRotator` of rustls, which holds two of these ticketers and changes them over time.  In an `Option
(Option α)` the outer `none` is a panic.
-/
namespace Verif.Ticketer
open Verif

/-- `XChaCha20Ticketer`, ticketer.rs:31-36, without the counter (`Shared.max`). -/
structure Ticketer where
  key : Bytes
  keyName : Bytes
  lifetime : Nat

/-- `XChaCha20Ticketer::new`, ticketer.rs:39-54, with calls `i` and `i + 1` of the random source; the counter starts at 0. -/
def new (rng : RandomSource) (i : Nat) : Except GError Ticketer := do
  let key ← rng i 32
  let keyName ← rng (i + 1) 16
  return ⟨key, keyName, 6 * 60 * 60⟩

/-- `encrypt`, ticketer.rs:78-91: the ticket for a nonce. -/
def sealed (S : ChaChaPoly.Stream) (t : Ticketer) (nonce message : Bytes) : Option Bytes :=
  (ChaChaPoly.xencrypt S t.key nonce t.keyName message).map fun r => t.keyName ++ nonce ++ r.1 ++ r.2

/-- The end of `decrypt`, ticketer.rs:124-127. -/
def opened : Except GError Unit × Bytes → Option Bytes
  | (.ok _, plain) => some plain
  | (.error _, _) => none

/-- `decrypt`, ticketer.rs:99-128, for the value `max` loaded from the counter. -/
def decrypt (S : ChaChaPoly.Stream) (t : Ticketer) (max : Nat) (ciphertext : Bytes) : Option (Option Bytes) :=
  if ciphertext.length > max then some none
  else
    let plainLen := ciphertext.length - (t.keyName.length + 24 + 16)
    if plainLen = 0 then some none
    else
      let allegedKeyName := ciphertext.take t.keyName.length
      let rest := ciphertext.drop t.keyName.length
      if allegedKeyName ≠ t.keyName then some none
      else
        let nonce := rest.take 24
        let rest := rest.drop 24
        let plain := rest.take plainLen
        let allegedTag := rest.drop plainLen
        (ChaChaPoly.xdecrypt S t.key nonce allegedKeyName plain allegedTag).map opened

/-- A call in progress or finished: everything between two accesses to shared state is one step. -/
inductive Call
  /-- `encrypt` before drawing the nonce -/
  | encStart (message : Bytes)
  /-- `encrypt` before `fetch_max` -/
  | encSealed (message ticket : Bytes)
  /-- `encrypt` has returned -/
  | encDone (message : Bytes) (result : Option Bytes)
  /-- `decrypt` before the load -/
  | decStart (ciphertext : Bytes)
  /-- `decrypt` after the load -/
  | decLoaded (ciphertext : Bytes) (max : Nat)
  /-- `decrypt` has returned -/
  | decDone (ciphertext : Bytes) (result : Option Bytes)
  | panicked

/-- What the calls share: the counter `maximum_ciphertext_len`, and the number of calls of the random source; and all the calls
made. -/
structure Shared where
  max : Nat
  draws : Nat
  calls : List Call

/-- The state after `new`. -/
def Shared.init : Shared := ⟨0, 0, []⟩

/-- One step of a call: the call and the shared values after it.  The counter is accessed with sequentially consistent atomic
operations (ticketer.rs:93-94, 100), each a step of its own. -/
def Call.step (S : ChaChaPoly.Stream) (t : Ticketer) (rng : RandomSource) (max draws : Nat) : Call → Call × Nat × Nat
  | .encStart m =>
    match rng draws 24 with
    | .error _ => (.encDone m none, max, draws + 1)
    | .ok nonce =>
      match sealed S t nonce m with
      | none => (.panicked, max, draws + 1)
      | some res => (.encSealed m res, max, draws + 1)
  | .encSealed m res => (.encDone m (some res), Nat.max max res.length, draws)
  | .decStart c => (.decLoaded c max, max, draws)
  | .decLoaded c max' =>
    match decrypt S t max' c with
    | none => (.panicked, max, draws)
    | some r => (.decDone c r, max, draws)
  | c => (c, max, draws)

/-- A new call is made, or some call makes a step. -/
inductive Step (S : ChaChaPoly.Stream) (t : Ticketer) (rng : RandomSource) : Shared → Shared → Prop
  | encrypt (s : Shared) (m : Bytes) : Step S t rng s { s with calls := s.calls ++ [.encStart m] }
  | decrypt (s : Shared) (c : Bytes) : Step S t rng s { s with calls := s.calls ++ [.decStart c] }
  | run (s : Shared) (i : Nat) (c : Call) (h : s.calls[i]? = some c) :
    Step S t rng s
      ⟨(c.step S t rng s.max s.draws).2.1, (c.step S t rng s.max s.draws).2.2, s.calls.set i (c.step S t rng s.max s.draws).1⟩

/-- Any number of steps, in any order. -/
inductive Steps (S : ChaChaPoly.Stream) (t : Ticketer) (rng : RandomSource) : Shared → Shared → Prop
  | refl (s : Shared) : Steps S t rng s s
  | tail {a b c : Shared} : Steps S t rng a b → Step S t rng b c → Steps S t rng a c

end Verif.Ticketer
