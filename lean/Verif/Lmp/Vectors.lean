import Verif.Lmp.Model

/-!
# The project's transcripts of pairing and encryption, replayed on the model

Generated by `tools/gen_lmp_vectors.py` from `/repo/rust/test/{SP,ENC}/*.in` and the `mod tests`
of `secure_simple_pairing.rs` and `encryption.rs`. The model goes through the 19 transcripts
the code goes through, and it fails on the 16 the code is known to fail on (marked
`should_panic`). These are tests of the model, not claims about it.

As in the model, transaction identifiers, random numbers, keys and the displayed value are left
out.
-/

namespace Verif.Lmp.Vectors

open Verif.Lmp

/-- A line of a transcript. `unknown` is a line the model has no word for; no run agrees with it. -/
inductive Item
  | fromPeer (p : Lmp)
  | fromHost (c : Cmd)
  | toPeer (p : Lmp)
  | toHost (e : Ev)
  | unknown

/-- The parameters of a command that has none. -/
def noParams : Params := ⟨.displayOnly, .notPresent, .noBonding⟩

/-- The procedure under test, `none` when it has ended, and what it has sent so far that the
transcript has not mentioned yet: the two queues of `TestContext` (test/context.rs). -/
structure Bench where
  cur : Option (Prog Unit)
  events : List Ev
  packets : List Lmp

/-- Puts what was sent on the two queues. -/
def Bench.sent (b : Bench) : List Out → Bench
  | [] => b
  | .hci e :: os => ({ b with events := b.events ++ [e] } : Bench).sent os
  | .lmp p :: os => ({ b with packets := b.packets ++ [p] } : Bench).sent os

/-- `poll` (test/context.rs): the procedure runs until it is pending. `peer_extended_features`
of the test context knows the features of the peer, so the code does not ask for them; the model
always asks, and the answer is given here, off the record. `none` is a panic. -/
def poll (peer : Feats) : Nat → Bench → Option Cmd → List Lmp → Option (Bench × Option Cmd × List Lmp)
  | 0, b, slot, queue => some (b, slot, queue)
  | n + 1, b, slot, queue =>
    match b.cur with
    | none => some (b, slot, queue)
    | some p =>
      match offer p slot queue with
      | none => some (b, slot, queue)
      | some t =>
        if t.yield then some (b, t.slot, t.queue)
        else
          match flush t.next with
          | (_, .panic) => none
          | (o, .done) => some (({ b with cur := none } : Bench).sent o, t.slot, t.queue)
          | (o, .await q) =>
            match o.getLast? with
            | some (.lmp (.featuresReq page)) =>
              poll peer n (({ b with cur := some q } : Bench).sent o.dropLast) t.slot
                (.featuresRes (peer.page page) :: t.queue)
            | _ => poll peer n (({ b with cur := some q } : Bench).sent o) t.slot t.queue

/-- One line of a transcript (test/sequence.rs). An input must be consumed. -/
def line (peer : Feats) (b : Bench) : Item → Option Bench
  | .fromPeer p =>
    match poll peer 10 b none [p] with
    | some (b, none, []) => some b
    | _ => none
  | .fromHost c =>
    match poll peer 10 b (some c) [] with
    | some (b, none, []) => some b
    | _ => none
  | .toPeer p =>
    match b.packets with
    | q :: qs => if p = q then some { b with packets := qs } else none
    | [] => none
  | .toHost e =>
    match b.events with
    | f :: fs => if e = f then some { b with events := fs } else none
    | [] => none
  | .unknown => none

/-- The lines of a transcript. -/
def lines (peer : Feats) : List Item → Bench → Option Bench
  | [], b => some b
  | i :: is, b =>
    match line peer b i with
    | some b => lines peer is b
    | none => none

/-- `repeat n times`. -/
def again (n : Nat) (l : List Item) : List Item := (List.replicate n l).flatten

/-- `sequence!` (test/sequence.rs): the whole transcript, at the end of which the procedure has
ended and nothing it sent is left over. -/
def replay (peer : Feats) (p : Prog Unit) (l : List Item) : Bool :=
  match lines peer l ⟨some p, [], []⟩ with
  | some b => b.cur.isNone && b.events.isEmpty && b.packets.isEmpty
  | none => false

/-! ### secure_simple_pairing.rs -/

/-- numeric_comparison_initiator_success (rust/test/SP/BV-06-C.in). -/
example :
  let own : Feats := ⟨⟨true, false, false⟩, ⟨false, false, false⟩, ⟨false, false, false⟩⟩
  let peer : Feats := ⟨⟨true, false, false⟩, ⟨false, false, false⟩, ⟨false, false, false⟩⟩
  replay peer (authInitiate own)
    ([.fromHost ⟨.authenticationRequested, 0, noParams⟩,
     .toHost (.answer .authenticationRequested .success),
     .toHost .linkKeyRequest,
     .fromHost ⟨.linkKeyNeg, 0, noParams⟩,
     .toHost (.answer .linkKeyNeg .success),
     .toHost .ioCapabilityRequest,
     .fromHost ⟨.ioReply, 0, ⟨.displayYesNo, .notPresent, .noBondingMitm⟩⟩,
     .toHost (.answer .ioReply .success),
     .toPeer (.ioReq (some ⟨.displayYesNo, .notPresent, .noBondingMitm⟩)),
     .fromPeer (.ioRes (some ⟨.displayYesNo, .notPresent, .noBondingMitm⟩)),
     .toHost (.ioCapabilityResponse ⟨.displayYesNo, .notPresent, .noBondingMitm⟩),
     .toPeer (.encapsulatedHeader 48),
     .fromPeer (.accepted .encapsulatedHeader)] ++
    again 3 [.toPeer .encapsulatedPayload, .fromPeer (.accepted .encapsulatedPayload)] ++
    [.fromPeer (.encapsulatedHeader 48),
     .toPeer (.accepted .encapsulatedHeader)] ++
    again 3 [.fromPeer .encapsulatedPayload, .toPeer (.accepted .encapsulatedPayload)] ++
    [.fromPeer (.confirm true),
     .toPeer .number,
     .fromPeer (.accepted .simplePairingNumber),
     .fromPeer .number,
     .toHost .userConfirmationRequest,
     .toPeer (.accepted .simplePairingNumber),
     .fromHost ⟨.confirmReply, 0, noParams⟩,
     .toHost (.answer .confirmReply .success),
     .toPeer .dhkeyCheck,
     .fromPeer (.accepted .dhkeyCheck),
     .fromPeer .dhkeyCheck,
     .toPeer (.accepted .dhkeyCheck),
     .toHost (.simplePairingComplete .success),
     .toPeer .auRand,
     .fromPeer .sres,
     .fromPeer .auRand,
     .toPeer .sres,
     .toHost (.linkKeyNotification .authenticatedP192),
     .toHost (.authenticationComplete .success)]) = true := by
  decide +kernel

/-- numeric_comparison_responder_success (rust/test/SP/BV-07-C.in). -/
example :
  let own : Feats := ⟨⟨true, false, false⟩, ⟨false, false, false⟩, ⟨false, false, false⟩⟩
  let peer : Feats := ⟨⟨true, false, false⟩, ⟨false, false, false⟩, ⟨false, false, false⟩⟩
  replay peer authRespond
    ([.fromPeer (.ioReq (some ⟨.displayYesNo, .notPresent, .noBondingMitm⟩)),
     .toHost (.ioCapabilityResponse ⟨.displayYesNo, .notPresent, .noBondingMitm⟩),
     .toHost .ioCapabilityRequest,
     .fromHost ⟨.ioReply, 0, ⟨.displayYesNo, .notPresent, .noBondingMitm⟩⟩,
     .toHost (.answer .ioReply .success),
     .toPeer (.ioRes (some ⟨.displayYesNo, .notPresent, .noBondingMitm⟩)),
     .fromPeer (.encapsulatedHeader 48),
     .toPeer (.accepted .encapsulatedHeader)] ++
    again 3 [.fromPeer .encapsulatedPayload, .toPeer (.accepted .encapsulatedPayload)] ++
    [.toPeer (.encapsulatedHeader 48),
     .fromPeer (.accepted .encapsulatedHeader)] ++
    again 3 [.toPeer .encapsulatedPayload, .fromPeer (.accepted .encapsulatedPayload)] ++
    [.toPeer (.confirm true),
     .fromPeer .number,
     .toPeer (.accepted .simplePairingNumber),
     .toPeer .number,
     .fromPeer (.accepted .simplePairingNumber),
     .toHost .userConfirmationRequest,
     .fromHost ⟨.confirmReply, 0, noParams⟩,
     .toHost (.answer .confirmReply .success),
     .fromPeer .dhkeyCheck,
     .toPeer (.accepted .dhkeyCheck),
     .toPeer .dhkeyCheck,
     .fromPeer (.accepted .dhkeyCheck),
     .toHost (.simplePairingComplete .success),
     .fromPeer .auRand,
     .toPeer .sres,
     .toPeer .auRand,
     .fromPeer .sres,
     .toHost (.linkKeyNotification .authenticatedP192)]) = true := by
  decide +kernel

/-- numeric_comparison_initiator_failure_on_initiating_side (rust/test/SP/BV-08-C.in). -/
example :
  let own : Feats := ⟨⟨true, false, false⟩, ⟨false, false, false⟩, ⟨false, false, false⟩⟩
  let peer : Feats := ⟨⟨true, false, false⟩, ⟨false, false, false⟩, ⟨false, false, false⟩⟩
  replay peer (authInitiate own)
    ([.fromHost ⟨.authenticationRequested, 0, noParams⟩,
     .toHost (.answer .authenticationRequested .success),
     .toHost .linkKeyRequest,
     .fromHost ⟨.linkKeyNeg, 0, noParams⟩,
     .toHost (.answer .linkKeyNeg .success),
     .toHost .ioCapabilityRequest,
     .fromHost ⟨.ioReply, 0, ⟨.displayYesNo, .notPresent, .noBondingMitm⟩⟩,
     .toHost (.answer .ioReply .success),
     .toPeer (.ioReq (some ⟨.displayYesNo, .notPresent, .noBondingMitm⟩)),
     .fromPeer (.ioRes (some ⟨.displayYesNo, .notPresent, .noBondingMitm⟩)),
     .toHost (.ioCapabilityResponse ⟨.displayYesNo, .notPresent, .noBondingMitm⟩),
     .toPeer (.encapsulatedHeader 48),
     .fromPeer (.accepted .encapsulatedHeader)] ++
    again 3 [.toPeer .encapsulatedPayload, .fromPeer (.accepted .encapsulatedPayload)] ++
    [.fromPeer (.encapsulatedHeader 48),
     .toPeer (.accepted .encapsulatedHeader)] ++
    again 3 [.fromPeer .encapsulatedPayload, .toPeer (.accepted .encapsulatedPayload)] ++
    [.fromPeer (.confirm true),
     .toPeer .number,
     .fromPeer (.accepted .simplePairingNumber),
     .fromPeer .number,
     .toHost .userConfirmationRequest,
     .toPeer (.accepted .simplePairingNumber),
     .fromHost ⟨.confirmNeg, 0, noParams⟩,
     .toHost (.answer .confirmNeg .success),
     .toPeer .numericFailed,
     .toHost (.simplePairingComplete .authenticationFailure),
     .toHost (.authenticationComplete .authenticationFailure)]) = true := by
  decide +kernel

/-- numeric_comparison_responder_failure_on_initiating_side (rust/test/SP/BV-09-C.in). -/
example :
  let own : Feats := ⟨⟨true, false, false⟩, ⟨false, false, false⟩, ⟨false, false, false⟩⟩
  let peer : Feats := ⟨⟨true, false, false⟩, ⟨false, false, false⟩, ⟨false, false, false⟩⟩
  replay peer authRespond
    ([.fromPeer (.ioReq (some ⟨.displayYesNo, .notPresent, .noBondingMitm⟩)),
     .toHost (.ioCapabilityResponse ⟨.displayYesNo, .notPresent, .noBondingMitm⟩),
     .toHost .ioCapabilityRequest,
     .fromHost ⟨.ioReply, 0, ⟨.displayYesNo, .notPresent, .noBondingMitm⟩⟩,
     .toHost (.answer .ioReply .success),
     .toPeer (.ioRes (some ⟨.displayYesNo, .notPresent, .noBondingMitm⟩)),
     .fromPeer (.encapsulatedHeader 48),
     .toPeer (.accepted .encapsulatedHeader)] ++
    again 3 [.fromPeer .encapsulatedPayload, .toPeer (.accepted .encapsulatedPayload)] ++
    [.toPeer (.encapsulatedHeader 48),
     .fromPeer (.accepted .encapsulatedHeader)] ++
    again 3 [.toPeer .encapsulatedPayload, .fromPeer (.accepted .encapsulatedPayload)] ++
    [.toPeer (.confirm true),
     .fromPeer .number,
     .toPeer (.accepted .simplePairingNumber),
     .toPeer .number,
     .fromPeer (.accepted .simplePairingNumber),
     .toHost .userConfirmationRequest,
     .fromHost ⟨.confirmReply, 0, noParams⟩,
     .toHost (.answer .confirmReply .success),
     .fromPeer .numericFailed,
     .toHost (.simplePairingComplete .authenticationFailure)]) = true := by
  decide +kernel

/-- numeric_comparison_initiator_failure_on_responding_side (rust/test/SP/BV-10-C.in). -/
example :
  let own : Feats := ⟨⟨true, false, false⟩, ⟨false, false, false⟩, ⟨false, false, false⟩⟩
  let peer : Feats := ⟨⟨true, false, false⟩, ⟨false, false, false⟩, ⟨false, false, false⟩⟩
  replay peer (authInitiate own)
    ([.fromHost ⟨.authenticationRequested, 0, noParams⟩,
     .toHost (.answer .authenticationRequested .success),
     .toHost .linkKeyRequest,
     .fromHost ⟨.linkKeyNeg, 0, noParams⟩,
     .toHost (.answer .linkKeyNeg .success),
     .toHost .ioCapabilityRequest,
     .fromHost ⟨.ioReply, 0, ⟨.displayYesNo, .notPresent, .noBondingMitm⟩⟩,
     .toHost (.answer .ioReply .success),
     .toPeer (.ioReq (some ⟨.displayYesNo, .notPresent, .noBondingMitm⟩)),
     .fromPeer (.ioRes (some ⟨.displayYesNo, .notPresent, .noBondingMitm⟩)),
     .toHost (.ioCapabilityResponse ⟨.displayYesNo, .notPresent, .noBondingMitm⟩),
     .toPeer (.encapsulatedHeader 48),
     .fromPeer (.accepted .encapsulatedHeader)] ++
    again 3 [.toPeer .encapsulatedPayload, .fromPeer (.accepted .encapsulatedPayload)] ++
    [.fromPeer (.encapsulatedHeader 48),
     .toPeer (.accepted .encapsulatedHeader)] ++
    again 3 [.fromPeer .encapsulatedPayload, .toPeer (.accepted .encapsulatedPayload)] ++
    [.fromPeer (.confirm true),
     .toPeer .number,
     .fromPeer (.accepted .simplePairingNumber),
     .fromPeer .number,
     .toHost .userConfirmationRequest,
     .toPeer (.accepted .simplePairingNumber),
     .fromHost ⟨.confirmReply, 0, noParams⟩,
     .toHost (.answer .confirmReply .success),
     .toPeer .dhkeyCheck,
     .fromPeer (.notAccepted .dhkeyCheck),
     .toHost (.simplePairingComplete .authenticationFailure),
     .toHost (.authenticationComplete .authenticationFailure)]) = true := by
  decide +kernel

/-- numeric_comparison_responder_failure_on_responding_side (rust/test/SP/BV-11-C.in). -/
example :
  let own : Feats := ⟨⟨true, false, false⟩, ⟨false, false, false⟩, ⟨false, false, false⟩⟩
  let peer : Feats := ⟨⟨true, false, false⟩, ⟨false, false, false⟩, ⟨false, false, false⟩⟩
  replay peer authRespond
    ([.fromPeer (.ioReq (some ⟨.displayYesNo, .notPresent, .noBondingMitm⟩)),
     .toHost (.ioCapabilityResponse ⟨.displayYesNo, .notPresent, .noBondingMitm⟩),
     .toHost .ioCapabilityRequest,
     .fromHost ⟨.ioReply, 0, ⟨.displayYesNo, .notPresent, .noBondingMitm⟩⟩,
     .toHost (.answer .ioReply .success),
     .toPeer (.ioRes (some ⟨.displayYesNo, .notPresent, .noBondingMitm⟩)),
     .fromPeer (.encapsulatedHeader 48),
     .toPeer (.accepted .encapsulatedHeader)] ++
    again 3 [.fromPeer .encapsulatedPayload, .toPeer (.accepted .encapsulatedPayload)] ++
    [.toPeer (.encapsulatedHeader 48),
     .fromPeer (.accepted .encapsulatedHeader)] ++
    again 3 [.toPeer .encapsulatedPayload, .fromPeer (.accepted .encapsulatedPayload)] ++
    [.toPeer (.confirm true),
     .fromPeer .number,
     .toPeer (.accepted .simplePairingNumber),
     .toPeer .number,
     .fromPeer (.accepted .simplePairingNumber),
     .toHost .userConfirmationRequest,
     .fromHost ⟨.confirmNeg, 0, noParams⟩,
     .toHost (.answer .confirmNeg .success),
     .fromPeer .dhkeyCheck,
     .toPeer (.notAccepted .dhkeyCheck),
     .toHost (.simplePairingComplete .authenticationFailure)]) = true := by
  decide +kernel

/-- passkey_entry_initiator_success (rust/test/SP/BV-12-C.in). -/
example :
  let own : Feats := ⟨⟨true, false, false⟩, ⟨false, false, false⟩, ⟨false, false, false⟩⟩
  let peer : Feats := ⟨⟨true, false, false⟩, ⟨false, false, false⟩, ⟨false, false, false⟩⟩
  replay peer (authInitiate own)
    ([.fromHost ⟨.authenticationRequested, 0, noParams⟩,
     .toHost (.answer .authenticationRequested .success),
     .toHost .linkKeyRequest,
     .fromHost ⟨.linkKeyNeg, 0, noParams⟩,
     .toHost (.answer .linkKeyNeg .success),
     .toHost .ioCapabilityRequest,
     .fromHost ⟨.ioReply, 0, ⟨.keyboardOnly, .notPresent, .noBondingMitm⟩⟩,
     .toHost (.answer .ioReply .success),
     .toPeer (.ioReq (some ⟨.keyboardOnly, .notPresent, .noBondingMitm⟩)),
     .fromPeer (.ioRes (some ⟨.displayOnly, .notPresent, .noBondingMitm⟩)),
     .toHost (.ioCapabilityResponse ⟨.displayOnly, .notPresent, .noBondingMitm⟩),
     .toPeer (.encapsulatedHeader 48),
     .fromPeer (.accepted .encapsulatedHeader)] ++
    again 3 [.toPeer .encapsulatedPayload, .fromPeer (.accepted .encapsulatedPayload)] ++
    [.fromPeer (.encapsulatedHeader 48),
     .toPeer (.accepted .encapsulatedHeader)] ++
    again 3 [.fromPeer .encapsulatedPayload, .toPeer (.accepted .encapsulatedPayload)] ++
    [.toHost .userPasskeyRequest,
     .fromHost ⟨.passkeyReply, 0, noParams⟩,
     .toHost (.answer .passkeyReply .success)] ++
    again 20 [.toPeer (.confirm true), .fromPeer (.confirm true), .toPeer .number, .fromPeer (.accepted .simplePairingNumber), .fromPeer .number, .toPeer (.accepted .simplePairingNumber)] ++
    [.toPeer .dhkeyCheck,
     .fromPeer (.accepted .dhkeyCheck),
     .fromPeer .dhkeyCheck,
     .toPeer (.accepted .dhkeyCheck),
     .toHost (.simplePairingComplete .success),
     .toPeer .auRand,
     .fromPeer .sres,
     .fromPeer .auRand,
     .toPeer .sres,
     .toHost (.linkKeyNotification .authenticatedP192),
     .toHost (.authenticationComplete .success)]) = true := by
  decide +kernel

/-- passkey_entry_responder_success (rust/test/SP/BV-13-C.in). -/
example :
  let own : Feats := ⟨⟨true, false, false⟩, ⟨false, false, false⟩, ⟨false, false, false⟩⟩
  let peer : Feats := ⟨⟨true, false, false⟩, ⟨false, false, false⟩, ⟨false, false, false⟩⟩
  replay peer authRespond
    ([.fromPeer (.ioReq (some ⟨.keyboardOnly, .notPresent, .noBondingMitm⟩)),
     .toHost (.ioCapabilityResponse ⟨.keyboardOnly, .notPresent, .noBondingMitm⟩),
     .toHost .ioCapabilityRequest,
     .fromHost ⟨.ioReply, 0, ⟨.displayOnly, .notPresent, .noBondingMitm⟩⟩,
     .toHost (.answer .ioReply .success),
     .toPeer (.ioRes (some ⟨.displayOnly, .notPresent, .noBondingMitm⟩)),
     .fromPeer (.encapsulatedHeader 48),
     .toPeer (.accepted .encapsulatedHeader)] ++
    again 3 [.fromPeer .encapsulatedPayload, .toPeer (.accepted .encapsulatedPayload)] ++
    [.toPeer (.encapsulatedHeader 48),
     .fromPeer (.accepted .encapsulatedHeader)] ++
    again 3 [.toPeer .encapsulatedPayload, .fromPeer (.accepted .encapsulatedPayload)] ++
    [.toHost .userPasskeyNotification] ++
    again 20 [.fromPeer (.confirm true), .toPeer (.confirm true), .fromPeer .number, .toPeer (.accepted .simplePairingNumber), .toPeer .number, .fromPeer (.accepted .simplePairingNumber)] ++
    [.fromPeer .dhkeyCheck,
     .toPeer (.accepted .dhkeyCheck),
     .toPeer .dhkeyCheck,
     .fromPeer (.accepted .dhkeyCheck),
     .toHost (.simplePairingComplete .success),
     .fromPeer .auRand,
     .toPeer .sres,
     .toPeer .auRand,
     .fromPeer .sres,
     .toHost (.linkKeyNotification .authenticatedP192)]) = true := by
  decide +kernel

/-- passkey_entry_initiator_negative_reply_on_initiating_side (rust/test/SP/BV-14-C.in). -/
example :
  let own : Feats := ⟨⟨true, false, false⟩, ⟨false, false, false⟩, ⟨false, false, false⟩⟩
  let peer : Feats := ⟨⟨true, false, false⟩, ⟨false, false, false⟩, ⟨false, false, false⟩⟩
  replay peer (authInitiate own)
    ([.fromHost ⟨.authenticationRequested, 0, noParams⟩,
     .toHost (.answer .authenticationRequested .success),
     .toHost .linkKeyRequest,
     .fromHost ⟨.linkKeyNeg, 0, noParams⟩,
     .toHost (.answer .linkKeyNeg .success),
     .toHost .ioCapabilityRequest,
     .fromHost ⟨.ioReply, 0, ⟨.keyboardOnly, .notPresent, .noBondingMitm⟩⟩,
     .toHost (.answer .ioReply .success),
     .toPeer (.ioReq (some ⟨.keyboardOnly, .notPresent, .noBondingMitm⟩)),
     .fromPeer (.ioRes (some ⟨.displayOnly, .notPresent, .noBondingMitm⟩)),
     .toHost (.ioCapabilityResponse ⟨.displayOnly, .notPresent, .noBondingMitm⟩),
     .toPeer (.encapsulatedHeader 48),
     .fromPeer (.accepted .encapsulatedHeader)] ++
    again 3 [.toPeer .encapsulatedPayload, .fromPeer (.accepted .encapsulatedPayload)] ++
    [.fromPeer (.encapsulatedHeader 48),
     .toPeer (.accepted .encapsulatedHeader)] ++
    again 3 [.fromPeer .encapsulatedPayload, .toPeer (.accepted .encapsulatedPayload)] ++
    [.toHost .userPasskeyRequest,
     .fromHost ⟨.passkeyNeg, 0, noParams⟩,
     .toHost (.answer .passkeyNeg .success),
     .toPeer .passkeyFailed,
     .toHost (.simplePairingComplete .authenticationFailure),
     .toHost (.authenticationComplete .authenticationFailure)]) = true := by
  decide +kernel

/-- passkey_entry_responder_negative_reply_on_responding_side (rust/test/SP/BV-14bis-C.in). -/
example :
  let own : Feats := ⟨⟨true, false, false⟩, ⟨false, false, false⟩, ⟨false, false, false⟩⟩
  let peer : Feats := ⟨⟨true, false, false⟩, ⟨false, false, false⟩, ⟨false, false, false⟩⟩
  replay peer authRespond
    ([.fromPeer (.ioReq (some ⟨.displayOnly, .notPresent, .noBondingMitm⟩)),
     .toHost (.ioCapabilityResponse ⟨.displayOnly, .notPresent, .noBondingMitm⟩),
     .toHost .ioCapabilityRequest,
     .fromHost ⟨.ioReply, 0, ⟨.keyboardOnly, .notPresent, .noBondingMitm⟩⟩,
     .toHost (.answer .ioReply .success),
     .toPeer (.ioRes (some ⟨.keyboardOnly, .notPresent, .noBondingMitm⟩)),
     .fromPeer (.encapsulatedHeader 48),
     .toPeer (.accepted .encapsulatedHeader)] ++
    again 3 [.fromPeer .encapsulatedPayload, .toPeer (.accepted .encapsulatedPayload)] ++
    [.toPeer (.encapsulatedHeader 48),
     .fromPeer (.accepted .encapsulatedHeader)] ++
    again 3 [.toPeer .encapsulatedPayload, .fromPeer (.accepted .encapsulatedPayload)] ++
    [.toHost .userPasskeyRequest,
     .fromHost ⟨.passkeyNeg, 0, noParams⟩,
     .toHost (.answer .passkeyNeg .success),
     .fromPeer (.confirm true),
     .toPeer (.notAccepted .simplePairingConfirm),
     .toHost (.simplePairingComplete .authenticationFailure)]) = true := by
  decide +kernel

/-- passkey_entry_responder_negative_reply_on_initiating_side (rust/test/SP/BV-15-C.in). -/
example :
  let own : Feats := ⟨⟨true, false, false⟩, ⟨false, false, false⟩, ⟨false, false, false⟩⟩
  let peer : Feats := ⟨⟨true, false, false⟩, ⟨false, false, false⟩, ⟨false, false, false⟩⟩
  replay peer authRespond
    ([.fromPeer (.ioReq (some ⟨.keyboardOnly, .notPresent, .noBondingMitm⟩)),
     .toHost (.ioCapabilityResponse ⟨.keyboardOnly, .notPresent, .noBondingMitm⟩),
     .toHost .ioCapabilityRequest,
     .fromHost ⟨.ioReply, 0, ⟨.displayOnly, .notPresent, .noBondingMitm⟩⟩,
     .toHost (.answer .ioReply .success),
     .toPeer (.ioRes (some ⟨.displayOnly, .notPresent, .noBondingMitm⟩)),
     .fromPeer (.encapsulatedHeader 48),
     .toPeer (.accepted .encapsulatedHeader)] ++
    again 3 [.fromPeer .encapsulatedPayload, .toPeer (.accepted .encapsulatedPayload)] ++
    [.toPeer (.encapsulatedHeader 48),
     .fromPeer (.accepted .encapsulatedHeader)] ++
    again 3 [.toPeer .encapsulatedPayload, .fromPeer (.accepted .encapsulatedPayload)] ++
    [.toHost .userPasskeyNotification,
     .fromPeer .passkeyFailed,
     .toHost (.simplePairingComplete .authenticationFailure)]) = true := by
  decide +kernel

/-- passkey_entry_initiator_negative_reply_on_responding_side (rust/test/SP/BV-15bis-C.in). -/
example :
  let own : Feats := ⟨⟨true, false, false⟩, ⟨false, false, false⟩, ⟨false, false, false⟩⟩
  let peer : Feats := ⟨⟨true, false, false⟩, ⟨false, false, false⟩, ⟨false, false, false⟩⟩
  replay peer (authInitiate own)
    ([.fromHost ⟨.authenticationRequested, 0, noParams⟩,
     .toHost (.answer .authenticationRequested .success),
     .toHost .linkKeyRequest,
     .fromHost ⟨.linkKeyNeg, 0, noParams⟩,
     .toHost (.answer .linkKeyNeg .success),
     .toHost .ioCapabilityRequest,
     .fromHost ⟨.ioReply, 0, ⟨.displayOnly, .notPresent, .noBondingMitm⟩⟩,
     .toHost (.answer .ioReply .success),
     .toPeer (.ioReq (some ⟨.displayOnly, .notPresent, .noBondingMitm⟩)),
     .fromPeer (.ioRes (some ⟨.keyboardOnly, .notPresent, .noBondingMitm⟩)),
     .toHost (.ioCapabilityResponse ⟨.keyboardOnly, .notPresent, .noBondingMitm⟩),
     .toPeer (.encapsulatedHeader 48),
     .fromPeer (.accepted .encapsulatedHeader)] ++
    again 3 [.toPeer .encapsulatedPayload, .fromPeer (.accepted .encapsulatedPayload)] ++
    [.fromPeer (.encapsulatedHeader 48),
     .toPeer (.accepted .encapsulatedHeader)] ++
    again 3 [.fromPeer .encapsulatedPayload, .toPeer (.accepted .encapsulatedPayload)] ++
    [.toHost .userPasskeyNotification,
     .toPeer (.confirm true),
     .fromPeer (.notAccepted .simplePairingConfirm),
     .toHost (.simplePairingComplete .authenticationFailure),
     .toHost (.authenticationComplete .authenticationFailure)]) = true := by
  decide +kernel

/-- passkey_entry_initiator_failure_on_responding_side (rust/test/SP/BV-16-C.in), marked `should_panic`. -/
example :
  let own : Feats := ⟨⟨true, false, false⟩, ⟨false, false, false⟩, ⟨false, false, false⟩⟩
  let peer : Feats := ⟨⟨true, false, false⟩, ⟨false, false, false⟩, ⟨false, false, false⟩⟩
  replay peer (authInitiate own)
    ([.fromHost ⟨.authenticationRequested, 0, noParams⟩,
     .toHost (.answer .authenticationRequested .success),
     .toHost .linkKeyRequest,
     .fromHost ⟨.linkKeyNeg, 0, noParams⟩,
     .toHost (.answer .linkKeyNeg .success),
     .toHost .ioCapabilityRequest,
     .fromHost ⟨.ioReply, 0, ⟨.keyboardOnly, .notPresent, .noBondingMitm⟩⟩,
     .toHost (.answer .ioReply .success),
     .toPeer (.ioReq (some ⟨.keyboardOnly, .notPresent, .noBondingMitm⟩)),
     .fromPeer (.ioRes (some ⟨.displayOnly, .notPresent, .noBondingMitm⟩)),
     .toHost (.ioCapabilityResponse ⟨.displayOnly, .notPresent, .noBondingMitm⟩),
     .toPeer (.encapsulatedHeader 48),
     .fromPeer (.accepted .encapsulatedHeader)] ++
    again 3 [.toPeer .encapsulatedPayload, .fromPeer (.accepted .encapsulatedPayload)] ++
    [.fromPeer (.encapsulatedHeader 48),
     .toPeer (.accepted .encapsulatedHeader)] ++
    again 3 [.fromPeer .encapsulatedPayload, .toPeer (.accepted .encapsulatedPayload)] ++
    [.toHost .userPasskeyRequest,
     .fromHost ⟨.passkeyReply, 0, noParams⟩,
     .toHost (.answer .passkeyReply .success),
     .toPeer (.confirm true),
     .fromPeer (.confirm true),
     .toPeer .number,
     .fromPeer (.notAccepted .simplePairingNumber),
     .toHost (.simplePairingComplete .authenticationFailure),
     .toHost (.authenticationComplete .authenticationFailure)]) = false := by
  decide +kernel

/-- passkey_entry_responder_failure_on_responding_side (rust/test/SP/BV-17-C.in), marked `should_panic`. -/
example :
  let own : Feats := ⟨⟨true, false, false⟩, ⟨false, false, false⟩, ⟨false, false, false⟩⟩
  let peer : Feats := ⟨⟨true, false, false⟩, ⟨false, false, false⟩, ⟨false, false, false⟩⟩
  replay peer authRespond
    ([.fromPeer (.ioReq (some ⟨.keyboardOnly, .notPresent, .noBondingMitm⟩)),
     .toHost (.ioCapabilityResponse ⟨.keyboardOnly, .notPresent, .noBondingMitm⟩),
     .toHost .ioCapabilityRequest,
     .fromHost ⟨.ioReply, 0, ⟨.displayOnly, .notPresent, .noBondingMitm⟩⟩,
     .toHost (.answer .ioReply .success),
     .toPeer (.ioRes (some ⟨.displayOnly, .notPresent, .noBondingMitm⟩)),
     .fromPeer (.encapsulatedHeader 48),
     .toPeer (.accepted .encapsulatedHeader)] ++
    again 3 [.fromPeer .encapsulatedPayload, .toPeer (.accepted .encapsulatedPayload)] ++
    [.toPeer (.encapsulatedHeader 48),
     .fromPeer (.accepted .encapsulatedHeader)] ++
    again 3 [.toPeer .encapsulatedPayload, .fromPeer (.accepted .encapsulatedPayload)] ++
    [.toHost .userPasskeyNotification,
     .fromPeer (.confirm true),
     .toPeer (.confirm true),
     .fromPeer .number,
     .toPeer (.notAccepted .simplePairingNumber),
     .toHost (.simplePairingComplete .authenticationFailure)]) = false := by
  decide +kernel

/-- oob_protocol_initiator_iut_with_oob_auth_data_success (rust/test/SP/BV-18-C.in), marked `should_panic`. -/
example :
  let own : Feats := ⟨⟨true, false, false⟩, ⟨false, false, false⟩, ⟨false, false, false⟩⟩
  let peer : Feats := ⟨⟨true, false, false⟩, ⟨false, false, false⟩, ⟨false, false, false⟩⟩
  replay peer (authInitiate own)
    ([.fromHost ⟨.authenticationRequested, 0, noParams⟩,
     .toHost (.answer .authenticationRequested .success),
     .toHost .linkKeyRequest,
     .fromHost ⟨.linkKeyNeg, 0, noParams⟩,
     .toHost (.answer .linkKeyNeg .success),
     .toHost .ioCapabilityRequest,
     .fromHost ⟨.ioReply, 0, ⟨.displayYesNo, .p192, .noBondingMitm⟩⟩,
     .toHost (.answer .ioReply .success),
     .toPeer (.ioReq (some ⟨.displayYesNo, .p192, .noBondingMitm⟩)),
     .fromPeer (.ioRes (some ⟨.displayYesNo, .notPresent, .noBondingMitm⟩)),
     .toHost (.ioCapabilityResponse ⟨.displayYesNo, .notPresent, .noBondingMitm⟩),
     .toPeer (.encapsulatedHeader 48),
     .fromPeer (.accepted .encapsulatedHeader)] ++
    again 3 [.toPeer .encapsulatedPayload, .fromPeer (.accepted .encapsulatedPayload)] ++
    [.fromPeer (.encapsulatedHeader 48),
     .toPeer (.accepted .encapsulatedHeader)] ++
    again 3 [.fromPeer .encapsulatedPayload, .toPeer (.accepted .encapsulatedPayload)] ++
    [.toHost .remoteOobDataRequest,
     .fromHost ⟨.oobReply, 0, noParams⟩,
     .toHost (.answer .oobReply .success),
     .toPeer .number,
     .fromPeer (.accepted .simplePairingNumber),
     .fromPeer .number,
     .toPeer (.accepted .simplePairingNumber),
     .toPeer .dhkeyCheck,
     .fromPeer (.accepted .dhkeyCheck),
     .fromPeer .dhkeyCheck,
     .toPeer (.accepted .dhkeyCheck),
     .toHost (.simplePairingComplete .success),
     .toPeer .auRand,
     .fromPeer .sres,
     .fromPeer .auRand,
     .toPeer .sres,
     .toHost (.linkKeyNotification .authenticatedP192),
     .toHost (.authenticationComplete .success)]) = false := by
  decide +kernel

/-- oob_protocol_responder_iut_with_oob_auth_data_success (rust/test/SP/BV-19-C.in), marked `should_panic`. -/
example :
  let own : Feats := ⟨⟨true, false, false⟩, ⟨false, false, false⟩, ⟨false, false, false⟩⟩
  let peer : Feats := ⟨⟨true, false, false⟩, ⟨false, false, false⟩, ⟨false, false, false⟩⟩
  replay peer authRespond
    ([.fromPeer (.ioReq (some ⟨.displayYesNo, .notPresent, .noBondingMitm⟩)),
     .toHost (.ioCapabilityResponse ⟨.displayYesNo, .notPresent, .noBondingMitm⟩),
     .toHost .ioCapabilityRequest,
     .fromHost ⟨.ioReply, 0, ⟨.displayYesNo, .p192, .noBondingMitm⟩⟩,
     .toHost (.answer .ioReply .success),
     .toPeer (.ioRes (some ⟨.displayYesNo, .p192, .noBondingMitm⟩)),
     .fromPeer (.encapsulatedHeader 48),
     .toPeer (.accepted .encapsulatedHeader)] ++
    again 3 [.fromPeer .encapsulatedPayload, .toPeer (.accepted .encapsulatedPayload)] ++
    [.toPeer (.encapsulatedHeader 48),
     .fromPeer (.accepted .encapsulatedHeader)] ++
    again 3 [.toPeer .encapsulatedPayload, .fromPeer (.accepted .encapsulatedPayload)] ++
    [.toHost .remoteOobDataRequest,
     .fromHost ⟨.oobReply, 0, noParams⟩,
     .toHost (.answer .oobReply .success),
     .fromPeer .number,
     .toPeer (.accepted .simplePairingNumber),
     .toPeer .number,
     .fromPeer (.accepted .simplePairingNumber),
     .fromPeer .dhkeyCheck,
     .toPeer (.accepted .dhkeyCheck),
     .toPeer .dhkeyCheck,
     .fromPeer (.accepted .dhkeyCheck),
     .toHost (.simplePairingComplete .success),
     .fromPeer .auRand,
     .toPeer .sres,
     .toPeer .auRand,
     .fromPeer .sres,
     .toHost (.linkKeyNotification .authenticatedP192)]) = false := by
  decide +kernel

/-- oob_protocol_initiator_lower_tester_with_oob_auth_data_success (rust/test/SP/BV-20-C.in), marked `should_panic`. -/
example :
  let own : Feats := ⟨⟨true, false, false⟩, ⟨false, false, false⟩, ⟨false, false, false⟩⟩
  let peer : Feats := ⟨⟨true, false, false⟩, ⟨false, false, false⟩, ⟨false, false, false⟩⟩
  replay peer (authInitiate own)
    ([.unknown,
     .unknown,
     .fromHost ⟨.authenticationRequested, 0, noParams⟩,
     .toHost (.answer .authenticationRequested .success),
     .toHost .linkKeyRequest,
     .fromHost ⟨.linkKeyNeg, 0, noParams⟩,
     .toHost (.answer .linkKeyNeg .success),
     .toHost .ioCapabilityRequest,
     .fromHost ⟨.ioReply, 0, ⟨.displayYesNo, .notPresent, .noBondingMitm⟩⟩,
     .toHost (.answer .ioReply .success),
     .toPeer (.ioReq (some ⟨.displayYesNo, .notPresent, .noBondingMitm⟩)),
     .fromPeer (.ioRes (some ⟨.displayYesNo, .p192, .noBondingMitm⟩)),
     .toHost (.ioCapabilityResponse ⟨.displayYesNo, .p192, .noBondingMitm⟩),
     .toPeer (.encapsulatedHeader 48),
     .fromPeer (.accepted .encapsulatedHeader)] ++
    again 3 [.toPeer .encapsulatedPayload, .fromPeer (.accepted .encapsulatedPayload)] ++
    [.fromPeer (.encapsulatedHeader 48),
     .toPeer (.accepted .encapsulatedHeader)] ++
    again 3 [.fromPeer .encapsulatedPayload, .toPeer (.accepted .encapsulatedPayload)] ++
    [.toPeer .number,
     .fromPeer (.accepted .simplePairingNumber),
     .fromPeer .number,
     .toPeer (.accepted .simplePairingNumber),
     .toPeer .dhkeyCheck,
     .fromPeer (.accepted .dhkeyCheck),
     .fromPeer .dhkeyCheck,
     .toPeer (.accepted .dhkeyCheck),
     .toHost (.simplePairingComplete .success),
     .toPeer .auRand,
     .fromPeer .sres,
     .fromPeer .auRand,
     .toPeer .sres,
     .toHost (.linkKeyNotification .authenticatedP192),
     .toHost (.authenticationComplete .success)]) = false := by
  decide +kernel

/-- oob_protocol_responder_lower_tester_with_oob_auth_data_success (rust/test/SP/BV-21-C.in), marked `should_panic`. -/
example :
  let own : Feats := ⟨⟨true, false, false⟩, ⟨false, false, false⟩, ⟨false, false, false⟩⟩
  let peer : Feats := ⟨⟨true, false, false⟩, ⟨false, false, false⟩, ⟨false, false, false⟩⟩
  replay peer authRespond
    ([.unknown,
     .unknown,
     .fromPeer (.ioReq (some ⟨.displayYesNo, .p192, .noBondingMitm⟩)),
     .toHost (.ioCapabilityResponse ⟨.displayYesNo, .p192, .noBondingMitm⟩),
     .toHost .ioCapabilityRequest,
     .fromHost ⟨.ioReply, 0, ⟨.displayYesNo, .notPresent, .noBondingMitm⟩⟩,
     .toHost (.answer .ioReply .success),
     .toPeer (.ioRes (some ⟨.displayYesNo, .notPresent, .noBondingMitm⟩)),
     .fromPeer (.encapsulatedHeader 48),
     .toPeer (.accepted .encapsulatedHeader)] ++
    again 3 [.fromPeer .encapsulatedPayload, .toPeer (.accepted .encapsulatedPayload)] ++
    [.toPeer (.encapsulatedHeader 48),
     .fromPeer (.accepted .encapsulatedHeader)] ++
    again 3 [.toPeer .encapsulatedPayload, .fromPeer (.accepted .encapsulatedPayload)] ++
    [.fromPeer .number,
     .toPeer (.accepted .simplePairingNumber),
     .toPeer .number,
     .fromPeer (.accepted .simplePairingNumber),
     .fromPeer .dhkeyCheck,
     .toPeer (.accepted .dhkeyCheck),
     .toPeer .dhkeyCheck,
     .fromPeer (.accepted .dhkeyCheck),
     .toHost (.simplePairingComplete .success),
     .fromPeer .auRand,
     .toPeer .sres,
     .toPeer .auRand,
     .fromPeer .sres,
     .toHost (.linkKeyNotification .authenticatedP192)]) = false := by
  decide +kernel

/-- oob_protocol_initiator_iut_and_lower_tester_with_oob_auth_data_success (rust/test/SP/BV-22-C.in), marked `should_panic`. -/
example :
  let own : Feats := ⟨⟨true, false, false⟩, ⟨false, false, false⟩, ⟨false, false, false⟩⟩
  let peer : Feats := ⟨⟨true, false, false⟩, ⟨false, false, false⟩, ⟨false, false, false⟩⟩
  replay peer (authInitiate own)
    ([.unknown,
     .unknown,
     .fromHost ⟨.authenticationRequested, 0, noParams⟩,
     .toHost (.answer .authenticationRequested .success),
     .toHost .linkKeyRequest,
     .fromHost ⟨.linkKeyNeg, 0, noParams⟩,
     .toHost (.answer .linkKeyNeg .success),
     .toHost .ioCapabilityRequest,
     .fromHost ⟨.ioReply, 0, ⟨.displayYesNo, .p192, .noBondingMitm⟩⟩,
     .toHost (.answer .ioReply .success),
     .toPeer (.ioReq (some ⟨.displayYesNo, .p192, .noBondingMitm⟩)),
     .fromPeer (.ioRes (some ⟨.displayYesNo, .p192, .noBondingMitm⟩)),
     .toHost (.ioCapabilityResponse ⟨.displayYesNo, .p192, .noBondingMitm⟩),
     .toPeer (.encapsulatedHeader 48),
     .fromPeer (.accepted .encapsulatedHeader)] ++
    again 3 [.toPeer .encapsulatedPayload, .fromPeer (.accepted .encapsulatedPayload)] ++
    [.fromPeer (.encapsulatedHeader 48),
     .toPeer (.accepted .encapsulatedHeader)] ++
    again 3 [.fromPeer .encapsulatedPayload, .toPeer (.accepted .encapsulatedPayload)] ++
    [.toHost .remoteOobDataRequest,
     .fromHost ⟨.oobReply, 0, noParams⟩,
     .toHost (.answer .oobReply .success),
     .toPeer .number,
     .fromPeer (.accepted .simplePairingNumber),
     .fromPeer .number,
     .toPeer (.accepted .simplePairingNumber),
     .toPeer .dhkeyCheck,
     .fromPeer (.accepted .dhkeyCheck),
     .fromPeer .dhkeyCheck,
     .toPeer (.accepted .dhkeyCheck),
     .toHost (.simplePairingComplete .success),
     .toPeer .auRand,
     .fromPeer .sres,
     .fromPeer .auRand,
     .toPeer .sres,
     .toHost (.linkKeyNotification .authenticatedP192),
     .toHost (.authenticationComplete .success)]) = false := by
  decide +kernel

/-- oob_protocol_responder_iut_and_lower_tester_with_oob_auth_data_success (rust/test/SP/BV-23-C.in), marked `should_panic`. -/
example :
  let own : Feats := ⟨⟨true, false, false⟩, ⟨false, false, false⟩, ⟨false, false, false⟩⟩
  let peer : Feats := ⟨⟨true, false, false⟩, ⟨false, false, false⟩, ⟨false, false, false⟩⟩
  replay peer authRespond
    ([.unknown,
     .unknown,
     .fromPeer (.ioReq (some ⟨.displayYesNo, .p192, .noBondingMitm⟩)),
     .toHost (.ioCapabilityResponse ⟨.displayYesNo, .p192, .noBondingMitm⟩),
     .toHost .ioCapabilityRequest,
     .fromHost ⟨.ioReply, 0, ⟨.displayYesNo, .p192, .noBondingMitm⟩⟩,
     .toHost (.answer .ioReply .success),
     .toPeer (.ioRes (some ⟨.displayYesNo, .p192, .noBondingMitm⟩)),
     .fromPeer (.encapsulatedHeader 48),
     .toPeer (.accepted .encapsulatedHeader)] ++
    again 3 [.fromPeer .encapsulatedPayload, .toPeer (.accepted .encapsulatedPayload)] ++
    [.toPeer (.encapsulatedHeader 48),
     .fromPeer (.accepted .encapsulatedHeader)] ++
    again 3 [.toPeer .encapsulatedPayload, .fromPeer (.accepted .encapsulatedPayload)] ++
    [.toHost .remoteOobDataRequest,
     .fromHost ⟨.oobReply, 0, noParams⟩,
     .toHost (.answer .oobReply .success),
     .fromPeer .number,
     .toPeer (.accepted .simplePairingNumber),
     .toPeer .number,
     .fromPeer (.accepted .simplePairingNumber),
     .fromPeer .dhkeyCheck,
     .toPeer (.accepted .dhkeyCheck),
     .toPeer .dhkeyCheck,
     .fromPeer (.accepted .dhkeyCheck),
     .toHost (.simplePairingComplete .success),
     .fromPeer .auRand,
     .toPeer .sres,
     .toPeer .auRand,
     .fromPeer .sres,
     .toHost (.linkKeyNotification .authenticatedP192)]) = false := by
  decide +kernel

/-- oob_protocol_initiator_iut_with_oob_auth_data_failure (rust/test/SP/BV-24-C.in), marked `should_panic`. -/
example :
  let own : Feats := ⟨⟨true, false, false⟩, ⟨false, false, false⟩, ⟨false, false, false⟩⟩
  let peer : Feats := ⟨⟨true, false, false⟩, ⟨false, false, false⟩, ⟨false, false, false⟩⟩
  replay peer (authInitiate own)
    ([.fromHost ⟨.authenticationRequested, 0, noParams⟩,
     .toHost (.answer .authenticationRequested .success),
     .toHost .linkKeyRequest,
     .fromHost ⟨.linkKeyNeg, 0, noParams⟩,
     .toHost (.answer .linkKeyNeg .success),
     .toHost .ioCapabilityRequest,
     .fromHost ⟨.ioReply, 0, ⟨.displayYesNo, .p192, .noBondingMitm⟩⟩,
     .toHost (.answer .ioReply .success),
     .toPeer (.ioReq (some ⟨.displayYesNo, .p192, .noBondingMitm⟩)),
     .fromPeer (.ioRes (some ⟨.displayYesNo, .notPresent, .noBondingMitm⟩)),
     .toHost (.ioCapabilityResponse ⟨.displayYesNo, .notPresent, .noBondingMitm⟩),
     .toPeer (.encapsulatedHeader 48),
     .fromPeer (.accepted .encapsulatedHeader)] ++
    again 3 [.toPeer .encapsulatedPayload, .fromPeer (.accepted .encapsulatedPayload)] ++
    [.fromPeer (.encapsulatedHeader 48),
     .toPeer (.accepted .encapsulatedHeader)] ++
    again 3 [.fromPeer .encapsulatedPayload, .toPeer (.accepted .encapsulatedPayload)] ++
    [.toHost .remoteOobDataRequest,
     .fromHost ⟨.oobReply, 0, noParams⟩,
     .toHost (.answer .oobReply .success),
     .toPeer .number,
     .fromPeer (.accepted .simplePairingNumber),
     .fromPeer .number,
     .toPeer (.notAccepted .simplePairingNumber),
     .toHost (.simplePairingComplete .authenticationFailure),
     .toHost (.authenticationComplete .authenticationFailure)]) = false := by
  decide +kernel

/-- oob_protocol_responder_iut_with_oob_auth_data_failure (rust/test/SP/BV-25-C.in), marked `should_panic`. -/
example :
  let own : Feats := ⟨⟨true, false, false⟩, ⟨false, false, false⟩, ⟨false, false, false⟩⟩
  let peer : Feats := ⟨⟨true, false, false⟩, ⟨false, false, false⟩, ⟨false, false, false⟩⟩
  replay peer authRespond
    ([.fromPeer (.ioReq (some ⟨.displayYesNo, .notPresent, .noBondingMitm⟩)),
     .toHost (.ioCapabilityResponse ⟨.displayYesNo, .notPresent, .noBondingMitm⟩),
     .toHost .ioCapabilityRequest,
     .fromHost ⟨.ioReply, 0, ⟨.displayYesNo, .p192, .noBondingMitm⟩⟩,
     .toHost (.answer .ioReply .success),
     .toPeer (.ioRes (some ⟨.displayYesNo, .p192, .noBondingMitm⟩)),
     .fromPeer (.encapsulatedHeader 48),
     .toPeer (.accepted .encapsulatedHeader)] ++
    again 3 [.fromPeer .encapsulatedPayload, .toPeer (.accepted .encapsulatedPayload)] ++
    [.toPeer (.encapsulatedHeader 48),
     .fromPeer (.accepted .encapsulatedHeader)] ++
    again 3 [.toPeer .encapsulatedPayload, .fromPeer (.accepted .encapsulatedPayload)] ++
    [.toHost .remoteOobDataRequest,
     .fromHost ⟨.oobReply, 0, noParams⟩,
     .toHost (.answer .oobReply .success),
     .fromPeer .number,
     .toPeer (.notAccepted .simplePairingNumber),
     .toHost (.simplePairingComplete .authenticationFailure)]) = false := by
  decide +kernel

/-- oob_protocol_initiator_lower_tester_with_oob_auth_data_failure (rust/test/SP/BV-26-C.in), marked `should_panic`. -/
example :
  let own : Feats := ⟨⟨true, false, false⟩, ⟨false, false, false⟩, ⟨false, false, false⟩⟩
  let peer : Feats := ⟨⟨true, false, false⟩, ⟨false, false, false⟩, ⟨false, false, false⟩⟩
  replay peer (authInitiate own)
    ([.unknown,
     .unknown,
     .fromHost ⟨.authenticationRequested, 0, noParams⟩,
     .toHost (.answer .authenticationRequested .success),
     .toHost .linkKeyRequest,
     .fromHost ⟨.linkKeyNeg, 0, noParams⟩,
     .toHost (.answer .linkKeyNeg .success),
     .toHost .ioCapabilityRequest,
     .fromHost ⟨.ioReply, 0, ⟨.displayYesNo, .notPresent, .noBondingMitm⟩⟩,
     .toHost (.answer .ioReply .success),
     .toPeer (.ioReq (some ⟨.displayYesNo, .notPresent, .noBondingMitm⟩)),
     .fromPeer (.ioRes (some ⟨.displayYesNo, .p192, .noBondingMitm⟩)),
     .toHost (.ioCapabilityResponse ⟨.displayYesNo, .p192, .noBondingMitm⟩),
     .toPeer (.encapsulatedHeader 48),
     .fromPeer (.accepted .encapsulatedHeader)] ++
    again 3 [.toPeer .encapsulatedPayload, .fromPeer (.accepted .encapsulatedPayload)] ++
    [.fromPeer (.encapsulatedHeader 48),
     .toPeer (.accepted .encapsulatedHeader)] ++
    again 3 [.fromPeer .encapsulatedPayload, .toPeer (.accepted .encapsulatedPayload)] ++
    [.toPeer .number,
     .fromPeer (.notAccepted .simplePairingNumber),
     .toHost (.simplePairingComplete .authenticationFailure),
     .toHost (.authenticationComplete .authenticationFailure)]) = false := by
  decide +kernel

/-- oob_protocol_responder_lower_tester_with_oob_auth_data_failure (rust/test/SP/BV-27-C.in), marked `should_panic`. -/
example :
  let own : Feats := ⟨⟨true, false, false⟩, ⟨false, false, false⟩, ⟨false, false, false⟩⟩
  let peer : Feats := ⟨⟨true, false, false⟩, ⟨false, false, false⟩, ⟨false, false, false⟩⟩
  replay peer authRespond
    ([.unknown,
     .unknown,
     .fromPeer (.ioReq (some ⟨.displayYesNo, .p192, .noBondingMitm⟩)),
     .toHost (.ioCapabilityResponse ⟨.displayYesNo, .p192, .noBondingMitm⟩),
     .toHost .ioCapabilityRequest,
     .fromHost ⟨.ioReply, 0, ⟨.displayYesNo, .notPresent, .noBondingMitm⟩⟩,
     .toHost (.answer .ioReply .success),
     .toPeer (.ioRes (some ⟨.displayYesNo, .notPresent, .noBondingMitm⟩)),
     .fromPeer (.encapsulatedHeader 48),
     .toPeer (.accepted .encapsulatedHeader)] ++
    again 3 [.fromPeer .encapsulatedPayload, .toPeer (.accepted .encapsulatedPayload)] ++
    [.toPeer (.encapsulatedHeader 48),
     .fromPeer (.accepted .encapsulatedHeader)] ++
    again 3 [.toPeer .encapsulatedPayload, .fromPeer (.accepted .encapsulatedPayload)] ++
    [.fromPeer .number,
     .toPeer (.accepted .simplePairingNumber),
     .toPeer .number,
     .fromPeer (.notAccepted .simplePairingNumber),
     .toHost (.simplePairingComplete .authenticationFailure)]) = false := by
  decide +kernel

/-- secure_simple_pairing_failed_responder (rust/test/SP/BV-30-C.in). -/
example :
  let own : Feats := ⟨⟨true, false, false⟩, ⟨false, false, false⟩, ⟨false, false, false⟩⟩
  let peer : Feats := ⟨⟨true, false, false⟩, ⟨false, false, false⟩, ⟨false, false, false⟩⟩
  replay peer authRespond
    ([.fromPeer (.ioReq (some ⟨.displayYesNo, .notPresent, .noBondingMitm⟩)),
     .toHost (.ioCapabilityResponse ⟨.displayYesNo, .notPresent, .noBondingMitm⟩),
     .toHost .ioCapabilityRequest,
     .fromHost ⟨.ioNeg, 0, noParams⟩,
     .toHost (.answer .ioNeg .success),
     .toPeer .notAcceptedExt,
     .toHost (.simplePairingComplete .authenticationFailure)]) = true := by
  decide +kernel

/-- host_rejects_secure_simple_pairing_initiator (rust/test/SP/BV-31-C.in). -/
example :
  let own : Feats := ⟨⟨true, false, false⟩, ⟨false, false, false⟩, ⟨false, false, false⟩⟩
  let peer : Feats := ⟨⟨true, false, false⟩, ⟨false, false, false⟩, ⟨false, false, false⟩⟩
  replay peer (authInitiate own)
    ([.fromHost ⟨.authenticationRequested, 0, noParams⟩,
     .toHost (.answer .authenticationRequested .success),
     .toHost .linkKeyRequest,
     .fromHost ⟨.linkKeyNeg, 0, noParams⟩,
     .toHost (.answer .linkKeyNeg .success),
     .toHost .ioCapabilityRequest,
     .fromHost ⟨.ioNeg, 0, noParams⟩,
     .toHost (.answer .ioNeg .success),
     .toHost (.simplePairingComplete .authenticationFailure),
     .toHost (.authenticationComplete .authenticationFailure)]) = true := by
  decide +kernel

/-- host_rejects_secure_simple_pairing_responder (rust/test/SP/BV-32-C.in). -/
example :
  let own : Feats := ⟨⟨true, false, false⟩, ⟨false, false, false⟩, ⟨false, false, false⟩⟩
  let peer : Feats := ⟨⟨true, false, false⟩, ⟨false, false, false⟩, ⟨false, false, false⟩⟩
  replay peer authRespond
    ([.fromPeer (.ioReq (some ⟨.displayYesNo, .notPresent, .noBondingMitm⟩)),
     .toHost (.ioCapabilityResponse ⟨.displayYesNo, .notPresent, .noBondingMitm⟩),
     .toHost .ioCapabilityRequest,
     .fromHost ⟨.ioNeg, 0, noParams⟩,
     .toHost (.answer .ioNeg .success),
     .toPeer .notAcceptedExt,
     .toHost (.simplePairingComplete .authenticationFailure)]) = true := by
  decide +kernel

/-- passkey_entry_with_keypress_notification_initiator_success (rust/test/SP/BV-33-C.in), marked `should_panic`. -/
example :
  let own : Feats := ⟨⟨true, false, false⟩, ⟨false, false, false⟩, ⟨false, false, false⟩⟩
  let peer : Feats := ⟨⟨true, false, false⟩, ⟨false, false, false⟩, ⟨false, false, false⟩⟩
  replay peer (authInitiate own)
    ([.fromHost ⟨.authenticationRequested, 0, noParams⟩,
     .toHost (.answer .authenticationRequested .success),
     .toHost .linkKeyRequest,
     .fromHost ⟨.linkKeyNeg, 0, noParams⟩,
     .toHost (.answer .linkKeyNeg .success),
     .toHost .ioCapabilityRequest,
     .fromHost ⟨.ioReply, 0, ⟨.keyboardOnly, .notPresent, .noBondingMitm⟩⟩,
     .toHost (.answer .ioReply .success),
     .toPeer (.ioReq (some ⟨.keyboardOnly, .notPresent, .noBondingMitm⟩)),
     .fromPeer (.ioRes (some ⟨.displayOnly, .notPresent, .noBondingMitm⟩)),
     .toHost (.ioCapabilityResponse ⟨.displayOnly, .notPresent, .noBondingMitm⟩),
     .toPeer (.encapsulatedHeader 48),
     .fromPeer (.accepted .encapsulatedHeader)] ++
    again 3 [.toPeer .encapsulatedPayload, .fromPeer (.accepted .encapsulatedPayload)] ++
    [.fromPeer (.encapsulatedHeader 48),
     .toPeer (.accepted .encapsulatedHeader)] ++
    again 3 [.fromPeer .encapsulatedPayload, .toPeer (.accepted .encapsulatedPayload)] ++
    [.toHost .userPasskeyRequest,
     .fromHost ⟨.keypress, 0, noParams⟩,
     .toPeer .other,
     .toHost (.answer .keypress .success),
     .fromHost ⟨.keypress, 0, noParams⟩,
     .toPeer .other,
     .toHost (.answer .keypress .success),
     .fromHost ⟨.passkeyReply, 0, noParams⟩,
     .toHost (.answer .passkeyReply .success)] ++
    again 20 [.toPeer (.confirm true), .fromPeer (.confirm true), .toPeer .number, .fromPeer (.accepted .simplePairingNumber), .fromPeer .number, .toPeer (.accepted .simplePairingNumber)] ++
    [.toPeer .dhkeyCheck,
     .fromPeer (.accepted .dhkeyCheck),
     .fromPeer .dhkeyCheck,
     .toPeer (.accepted .dhkeyCheck),
     .toHost (.simplePairingComplete .success),
     .toPeer .auRand,
     .fromPeer .sres,
     .fromPeer .auRand,
     .toPeer .sres,
     .toHost (.linkKeyNotification .authenticatedP192),
     .toHost (.authenticationComplete .success)]) = false := by
  decide +kernel

/-- passkey_entry_with_keypress_notification_responder_success (rust/test/SP/BV-34-C.in), marked `should_panic`. -/
example :
  let own : Feats := ⟨⟨true, false, false⟩, ⟨false, false, false⟩, ⟨false, false, false⟩⟩
  let peer : Feats := ⟨⟨true, false, false⟩, ⟨false, false, false⟩, ⟨false, false, false⟩⟩
  replay peer authRespond
    ([.fromPeer (.ioReq (some ⟨.keyboardOnly, .notPresent, .noBondingMitm⟩)),
     .toHost (.ioCapabilityResponse ⟨.keyboardOnly, .notPresent, .noBondingMitm⟩),
     .toHost .ioCapabilityRequest,
     .fromHost ⟨.ioReply, 0, ⟨.displayOnly, .notPresent, .noBondingMitm⟩⟩,
     .toHost (.answer .ioReply .success),
     .toPeer (.ioRes (some ⟨.displayOnly, .notPresent, .noBondingMitm⟩)),
     .fromPeer (.encapsulatedHeader 48),
     .toPeer (.accepted .encapsulatedHeader)] ++
    again 3 [.fromPeer .encapsulatedPayload, .toPeer (.accepted .encapsulatedPayload)] ++
    [.toPeer (.encapsulatedHeader 48),
     .fromPeer (.accepted .encapsulatedHeader)] ++
    again 3 [.toPeer .encapsulatedPayload, .fromPeer (.accepted .encapsulatedPayload)] ++
    [.toHost .userPasskeyNotification,
     .fromPeer .other,
     .unknown,
     .fromPeer .other,
     .unknown] ++
    again 20 [.fromPeer (.confirm true), .toPeer (.confirm true), .fromPeer .number, .toPeer (.accepted .simplePairingNumber), .toPeer .number, .fromPeer (.accepted .simplePairingNumber)] ++
    [.fromPeer .dhkeyCheck,
     .toPeer (.accepted .dhkeyCheck),
     .toPeer .dhkeyCheck,
     .fromPeer (.accepted .dhkeyCheck),
     .toHost (.simplePairingComplete .success),
     .fromPeer .auRand,
     .toPeer .sres,
     .toPeer .auRand,
     .fromPeer .sres,
     .toHost (.linkKeyNotification .authenticatedP192)]) = false := by
  decide +kernel

/-- passkey_entry_with_keypress_notification_initiator_failure_on_responding_side (rust/test/SP/BV-35-C.in), marked `should_panic`. -/
example :
  let own : Feats := ⟨⟨true, false, false⟩, ⟨false, false, false⟩, ⟨false, false, false⟩⟩
  let peer : Feats := ⟨⟨true, false, false⟩, ⟨false, false, false⟩, ⟨false, false, false⟩⟩
  replay peer (authInitiate own)
    ([.fromHost ⟨.authenticationRequested, 0, noParams⟩,
     .toHost (.answer .authenticationRequested .success),
     .toHost .linkKeyRequest,
     .fromHost ⟨.linkKeyNeg, 0, noParams⟩,
     .toHost (.answer .linkKeyNeg .success),
     .toHost .ioCapabilityRequest,
     .fromHost ⟨.ioReply, 0, ⟨.keyboardOnly, .notPresent, .noBondingMitm⟩⟩,
     .toHost (.answer .ioReply .success),
     .toPeer (.ioReq (some ⟨.keyboardOnly, .notPresent, .noBondingMitm⟩)),
     .fromPeer (.ioRes (some ⟨.displayOnly, .notPresent, .noBondingMitm⟩)),
     .toHost (.ioCapabilityResponse ⟨.displayOnly, .notPresent, .noBondingMitm⟩),
     .toPeer (.encapsulatedHeader 48),
     .fromPeer (.accepted .encapsulatedHeader)] ++
    again 3 [.toPeer .encapsulatedPayload, .fromPeer (.accepted .encapsulatedPayload)] ++
    [.fromPeer (.encapsulatedHeader 48),
     .toPeer (.accepted .encapsulatedHeader)] ++
    again 3 [.fromPeer .encapsulatedPayload, .toPeer (.accepted .encapsulatedPayload)] ++
    [.toHost .userPasskeyRequest,
     .fromHost ⟨.keypress, 0, noParams⟩,
     .toPeer .other,
     .toHost (.answer .keypress .success),
     .fromHost ⟨.keypress, 0, noParams⟩,
     .toPeer .other,
     .toHost (.answer .keypress .success),
     .fromHost ⟨.passkeyReply, 0, noParams⟩,
     .toHost (.answer .passkeyReply .success),
     .toPeer (.confirm true),
     .fromPeer (.confirm true),
     .toPeer .number,
     .fromPeer (.notAccepted .simplePairingNumber),
     .toHost (.simplePairingComplete .authenticationFailure),
     .toHost (.authenticationComplete .authenticationFailure)]) = false := by
  decide +kernel

/-- passkey_entry_with_keypress_notificiation_responder_failure_on_responding_side (rust/test/SP/BV-36-C.in), marked `should_panic`. -/
example :
  let own : Feats := ⟨⟨true, false, false⟩, ⟨false, false, false⟩, ⟨false, false, false⟩⟩
  let peer : Feats := ⟨⟨true, false, false⟩, ⟨false, false, false⟩, ⟨false, false, false⟩⟩
  replay peer authRespond
    ([.fromPeer (.ioReq (some ⟨.keyboardOnly, .notPresent, .noBondingMitm⟩)),
     .toHost (.ioCapabilityResponse ⟨.keyboardOnly, .notPresent, .noBondingMitm⟩),
     .toHost .ioCapabilityRequest,
     .fromHost ⟨.ioReply, 0, ⟨.displayOnly, .notPresent, .noBondingMitm⟩⟩,
     .toHost (.answer .ioReply .success),
     .toPeer (.ioRes (some ⟨.displayOnly, .notPresent, .noBondingMitm⟩)),
     .fromPeer (.encapsulatedHeader 48),
     .toPeer (.accepted .encapsulatedHeader)] ++
    again 3 [.fromPeer .encapsulatedPayload, .toPeer (.accepted .encapsulatedPayload)] ++
    [.toPeer (.encapsulatedHeader 48),
     .fromPeer (.accepted .encapsulatedHeader)] ++
    again 3 [.toPeer .encapsulatedPayload, .fromPeer (.accepted .encapsulatedPayload)] ++
    [.toHost .userPasskeyNotification,
     .fromPeer .other,
     .unknown,
     .fromPeer .other,
     .unknown,
     .fromPeer (.confirm true),
     .toPeer (.confirm true),
     .fromPeer .number,
     .toPeer (.notAccepted .simplePairingNumber),
     .toHost (.simplePairingComplete .authenticationFailure)]) = false := by
  decide +kernel

/-! ### encryption.rs -/

/-- accept_encryption (rust/test/ENC/BV-01-C.in). -/
example :
  let own : Feats := ⟨⟨true, false, false⟩, ⟨false, false, false⟩, ⟨false, false, false⟩⟩
  let peer : Feats := ⟨⟨true, false, false⟩, ⟨false, false, false⟩, ⟨false, false, false⟩⟩
  replay peer (encRespond own)
    ([.fromPeer .encryptionModeReq,
     .toPeer (.accepted .encryptionModeReq),
     .fromPeer .encryptionKeySizeReq,
     .toPeer (.accepted .encryptionKeySizeReq),
     .fromPeer .startEncryptionReq,
     .toPeer (.accepted .startEncryptionReq),
     .toHost (.encryptionChange false)]) = true := by
  decide +kernel

/-- initiate_encryption (rust/test/ENC/BV-05-C.in). -/
example :
  let own : Feats := ⟨⟨true, false, false⟩, ⟨false, false, false⟩, ⟨false, false, false⟩⟩
  let peer : Feats := ⟨⟨true, false, false⟩, ⟨false, false, false⟩, ⟨false, false, false⟩⟩
  replay peer (encInitiate own)
    ([.fromHost ⟨.setConnectionEncryption, 0, noParams⟩,
     .toHost (.answer .setConnectionEncryption .success),
     .toPeer .encryptionModeReq,
     .fromPeer (.accepted .encryptionModeReq),
     .toPeer .encryptionKeySizeReq,
     .fromPeer (.accepted .encryptionKeySizeReq),
     .toPeer .startEncryptionReq,
     .fromPeer (.accepted .startEncryptionReq),
     .toHost (.encryptionChange false)]) = true := by
  decide +kernel

/-- accept_aes_ccm_encryption_request (rust/test/ENC/BV-26-C.in). -/
example :
  let own : Feats := ⟨⟨true, true, false⟩, ⟨false, false, true⟩, ⟨false, false, false⟩⟩
  let peer : Feats := ⟨⟨true, true, false⟩, ⟨false, false, true⟩, ⟨false, false, false⟩⟩
  replay peer (encRespond own)
    ([.fromPeer .encryptionModeReq,
     .toPeer (.accepted .encryptionModeReq),
     .fromPeer .encryptionKeySizeReq,
     .toPeer (.accepted .encryptionKeySizeReq),
     .fromPeer .startEncryptionReq,
     .toPeer (.accepted .startEncryptionReq),
     .toHost (.encryptionChange true)]) = true := by
  decide +kernel

/-- initiate_aes_ccm_encryption (rust/test/ENC/BV-34-C.in). -/
example :
  let own : Feats := ⟨⟨true, true, false⟩, ⟨false, false, true⟩, ⟨false, false, false⟩⟩
  let peer : Feats := ⟨⟨true, true, false⟩, ⟨false, false, true⟩, ⟨false, false, false⟩⟩
  replay peer (encInitiate own)
    ([.fromHost ⟨.setConnectionEncryption, 0, noParams⟩,
     .toHost (.answer .setConnectionEncryption .success),
     .toPeer .encryptionModeReq,
     .fromPeer (.accepted .encryptionModeReq),
     .toPeer .encryptionKeySizeReq,
     .fromPeer (.accepted .encryptionKeySizeReq),
     .toPeer .startEncryptionReq,
     .fromPeer (.accepted .startEncryptionReq),
     .toHost (.encryptionChange true)]) = true := by
  decide +kernel

end Verif.Lmp.Vectors
