/-!
# The BR/EDR link manager: procedures

Models the link manager procedures of /repo/rust/src/lmp/procedure. A procedure is an `async fn`: code
that runs to the next `.await`, and is suspended there until a command of the host or a packet of the
peer lets it go on. Here a procedure is a `Prog`, a tree whose inner nodes are what it sends and what it
waits for.

Octet fields that the procedures copy or ignore are left out: transaction identifiers, random numbers,
link keys, the octets of public keys (what is computed from these is the subject of `Verif.Ec`), the
displayed numeric value. A commitment is `true` when it is the all-zero octet string the code expects.
-/

namespace Verif.Lmp

/-- `IoCapability` (packets/hci_packets.pdl 1373-1378). -/
inductive IoCap | displayOnly | displayYesNo | keyboardOnly | noInputNoOutput
  deriving DecidableEq, Repr

/-- `OobDataPresent` (packets/hci_packets.pdl 1380-1385). -/
inductive Oob | notPresent | p192 | p256 | both
  deriving DecidableEq, Repr

/-- `AuthenticationRequirements` (packets/hci_packets.pdl 1387-1394). -/
inductive AuthReq | noBonding | noBondingMitm | dedicated | dedicatedMitm | general | generalMitm
  deriving DecidableEq, Repr

/-- `AuthenticationParams` (secure_simple_pairing.rs 43-48). -/
structure Params where
  io : IoCap
  oob : Oob
  auth : AuthReq
  deriving DecidableEq, Repr

/-- The opcodes an `LMP_accepted` or `LMP_not_accepted` can name. -/
inductive Opcode
  | encapsulatedHeader | encapsulatedPayload | simplePairingConfirm | simplePairingNumber | dhkeyCheck
  | inRand | auRand | encryptionModeReq | encryptionKeySizeReq | startEncryptionReq | other
  deriving DecidableEq, Repr

/-- The bits of a page of features the procedures look at: bit 0 (`SECURE_SIMPLE_PAIRING_HOST_SUPPORT` of
page 1), bit 3 (`SECURE_CONNECTIONS_HOST_SUPPORT` of page 1) and bit 8
(`SECURE_CONNECTIONS_CONTROLLER_SUPPORT` of page 2), packets/hci_packets.pdl 2843-2863. -/
structure Word where
  b0 : Bool
  b3 : Bool
  b8 : Bool
  deriving DecidableEq, Repr

/-- What `extended_features(page)` returns (procedure/mod.rs 38). -/
structure Feats where
  page1 : Word
  page2 : Word
  others : Word
  deriving DecidableEq, Repr

def Feats.page (f : Feats) (n : Nat) : Word :=
  if n = 1 then f.page1 else if n = 2 then f.page2 else f.others

/-- `LmpPacket` (rust/lmp_packets.pdl). The three octets of an IO capability packet are `none` when one
of them is not a value of its enumeration. `other` stands for all packets no procedure asks for. -/
inductive Lmp
  | accepted (o : Opcode)
  | notAccepted (o : Opcode)
  | notAcceptedExt
  | inRand | combKey | auRand | sres
  | ioReq (p : Option Params)
  | ioRes (p : Option Params)
  | encapsulatedHeader (length : Nat)
  | encapsulatedPayload
  | confirm (zero : Bool)
  | number
  | numericFailed
  | passkeyFailed
  | dhkeyCheck
  | encryptionModeReq | encryptionKeySizeReq | startEncryptionReq
  | featuresReq (page : Nat)
  | featuresRes (w : Word)
  | other
  deriving DecidableEq, Repr

/-- The kinds of commands the controller hands to the link manager (dual_mode_controller.cc 4036-4081 and
4190). -/
inductive Kind
  | authenticationRequested | setConnectionEncryption
  | linkKeyReply | linkKeyNeg | pinReply | pinNeg | ioReply | ioNeg | confirmReply | confirmNeg
  | passkeyReply | passkeyNeg | oobReply | oobNeg | keypress | oobExtended
  deriving DecidableEq, Repr

/-- A command: its kind, its address parameter, and the parameters of an IO capability reply. The two
kinds that take a connection handle have as `addr` the address `ops.get_address` finds for the handle, 0 if
it finds none. -/
structure Cmd where
  kind : Kind
  addr : Nat
  params : Params
  deriving DecidableEq, Repr

inductive Status | success | authenticationFailure | pinOrKeyMissing | invalidParameters | unknownConnection
  deriving DecidableEq, Repr

/-- `KeyType` (packets/hci_packets.pdl 5571-5579), the values the procedures use. -/
inductive KeyType | combination | unauthenticatedP192 | authenticatedP192 | unauthenticatedP256 | authenticatedP256
  deriving DecidableEq, Repr

/-- The events sent to the host. `answer` is the command complete or command status event of a command of
that kind. -/
inductive Ev
  | answer (k : Kind) (s : Status)
  | linkKeyRequest | pinCodeRequest | ioCapabilityRequest | userConfirmationRequest | userPasskeyRequest
  | remoteOobDataRequest
  | userPasskeyNotification
  | ioCapabilityResponse (p : Params)
  | simplePairingComplete (s : Status)
  | linkKeyNotification (t : KeyType)
  | authenticationComplete (s : Status)
  | encryptionChange (aesCcm : Bool)
  deriving DecidableEq, Repr

inductive Out
  | hci (e : Ev)
  | lmp (p : Lmp)
  deriving DecidableEq, Repr

/-- The body of an `async fn`.

* `send o k`: `send_hci_event`, `send_lmp_packet`;
* `recvHci`, `recvLmp`: `receive_hci_command::<C>().await`, `receive_lmp_packet::<P>().await`, where the
  test tells whether the conversion to `C` or `P` succeeds (procedure/mod.rs 41-47);
* `wait op k`: the future of `send_accepted_lmp_packet` (procedure/mod.rs 83-110); `k` gets whether the
  result is `Ok`;
* `passkey k`: the loop of `user_passkey_request` (secure_simple_pairing.rs 226-263);
* `panic`: a failing `unwrap()` or a `todo!()`. -/
inductive Prog (α : Type) : Type
  | ret (a : α)
  | send (o : Out) (k : Prog α)
  | recvHci (acc : Kind → Bool) (k : Cmd → Prog α)
  | recvLmp (acc : Lmp → Bool) (k : Lmp → Prog α)
  | wait (op : Opcode) (k : Bool → Prog α)
  | passkey (k : Bool → Prog α)
  | panic

def Prog.bind {α β : Type} : Prog α → (α → Prog β) → Prog β
  | .ret a, f => f a
  | .send o k, f => .send o (k.bind f)
  | .recvHci acc k, f => .recvHci acc (fun c => (k c).bind f)
  | .recvLmp acc k, f => .recvLmp acc (fun l => (k l).bind f)
  | .wait op k, f => .wait op (fun b => (k b).bind f)
  | .passkey k, f => .passkey (fun b => (k b).bind f)
  | .panic, _ => .panic

instance : Monad Prog where
  pure := Prog.ret
  bind := Prog.bind

def hci (e : Ev) : Prog Unit := .send (.hci e) (.ret ())
def lmp (p : Lmp) : Prog Unit := .send (.lmp p) (.ret ())
def recvHci (acc : Kind → Bool) : Prog Cmd := .recvHci acc .ret
def recvLmp (acc : Lmp → Bool) : Prog Lmp := .recvLmp acc .ret

/-- `send_accepted_lmp_packet` (procedure/mod.rs 49-62). -/
def sendAccepted (p : Lmp) (op : Opcode) : Prog Bool := .send (.lmp p) (.wait op .ret)

/-- `receive_hci_command::<Either<Reply, NegativeReply>>()` followed, in both cases, by the completion
event with status success. Every place of the code that receives a host's answer does exactly this. The
result tells whether the answer is the positive one. -/
def recvReply (pos neg : Kind) : Prog Bool := do
  let c ← recvHci (fun k => k = pos || k = neg)
  hci (.answer c.kind .success)
  return c.kind = pos

def isAuRand : Lmp → Bool | .auRand => true | _ => false
def isSresOrNot : Lmp → Bool | .sres => true | .notAccepted _ => true | _ => false
def isSres : Lmp → Bool | .sres => true | _ => false
def isCombKey : Lmp → Bool | .combKey => true | _ => false
def isFeaturesRes : Lmp → Bool | .featuresRes _ => true | _ => false
def isFeaturesReq : Lmp → Bool | .featuresReq _ => true | _ => false
def isIoRes : Lmp → Bool | .ioRes _ => true | _ => false
def isHeader : Lmp → Bool | .encapsulatedHeader _ => true | _ => false
def isPayload : Lmp → Bool | .encapsulatedPayload => true | _ => false
def isConfirm : Lmp → Bool | .confirm _ => true | _ => false
def isConfirmOrNot : Lmp → Bool | .confirm _ => true | .notAccepted _ => true | _ => false
def isConfirmOrFailed : Lmp → Bool | .confirm _ => true | .passkeyFailed => true | _ => false
def isNumber : Lmp → Bool | .number => true | _ => false
def isDhkey : Lmp → Bool | .dhkeyCheck => true | _ => false
def isFailedOrDhkey : Lmp → Bool | .numericFailed => true | .dhkeyCheck => true | _ => false
def isModeReq : Lmp → Bool | .encryptionModeReq => true | _ => false
def isKeySizeReq : Lmp → Bool | .encryptionKeySizeReq => true | _ => false
def isStartReq : Lmp → Bool | .startEncryptionReq => true | _ => false
def isAuthentication : Lmp → Bool | .auRand => true | .ioReq _ => true | .inRand => true | _ => false

/-! ## features.rs -/

/-- `supported_on_both_page` (features.rs 46-59) with `peer_extended_features` always `None`
(procedure/mod.rs 34-36); `bit` is the mask. The peer is asked only if the feature is supported here. -/
def supportedOnBoth (f : Feats) (page : Nat) (bit : Word → Bool) : Prog Bool :=
  if bit (f.page page) then do
    lmp (.featuresReq page)
    match ← recvLmp isFeaturesRes with
    | .featuresRes w => return bit w
    | _ => return false
  else return false

/-- `features::respond` (features.rs 34-44). -/
def featuresRespond (f : Feats) : Prog Unit := do
  match ← recvLmp isFeaturesReq with
  | .featuresReq page => lmp (.featuresRes (f.page page))
  | _ => return ()

/-! ## authentication.rs -/

/-- `send_challenge` (authentication.rs 22-37). -/
def sendChallenge : Prog Bool := do
  lmp .auRand
  let p ← recvLmp isSresOrNot
  return isSres p

/-- `receive_challenge` (authentication.rs 39-45). -/
def receiveChallenge : Prog Unit := do
  let _ ← recvLmp isAuRand
  lmp .sres

/-! ## legacy_pairing.rs -/

/-- `legacy_pairing::initiate` (legacy_pairing.rs 22-56). The negative PIN reply is not received. -/
def legacyInitiate : Prog Bool := do
  hci .pinCodeRequest
  let c ← recvHci (fun k => k = .pinReply)
  hci (.answer c.kind .success)
  let _ ← sendAccepted .inRand .inRand
  lmp .combKey
  let _ ← recvLmp isCombKey
  let ok ← sendChallenge
  receiveChallenge
  if ok then do
    hci (.linkKeyNotification .combination)
    return true
  else return false

/-- `legacy_pairing::respond` (legacy_pairing.rs 58-91). -/
def legacyRespond : Prog Bool := do
  hci .pinCodeRequest
  let c ← recvHci (fun k => k = .pinReply)
  hci (.answer c.kind .success)
  lmp (.accepted .inRand)
  let _ ← recvLmp isCombKey
  lmp .combKey
  receiveChallenge
  let ok ← sendChallenge
  if ok then do
    hci (.linkKeyNotification .combination)
    return true
  else return false

/-! ## secure_simple_pairing.rs -/

/-- `has_mitm` (secure_simple_pairing.rs 26-35). -/
def hasMitm : AuthReq → Bool
  | .noBonding | .dedicated | .general => false
  | .noBondingMitm | .dedicatedMitm | .generalMitm => true

/-- `AuthenticationMethod` (secure_simple_pairing.rs 37-42). -/
inductive Method | outOfBand | justWork | userConfirm | passkeyEntry
  deriving DecidableEq, Repr

/-- `authentication_method` (secure_simple_pairing.rs 51-74). -/
def authMethod (i r : Params) : Method :=
  if i.oob ≠ .notPresent ∨ r.oob ≠ .notPresent then .outOfBand
  else if hasMitm i.auth = false ∧ hasMitm r.auth = false then .justWork
  else if (i.io = .keyboardOnly ∧ r.io ≠ .noInputNoOutput) ∨ (r.io = .keyboardOnly ∧ i.io ≠ .noInputNoOutput) then
    .passkeyEntry
  else if i.io = .displayYesNo ∧ r.io = .displayYesNo then .userConfirm
  else .justWork

/-- `DhKey` and the two kinds of public keys: `true` is P-256. -/
abbrev Curve := Bool

/-- `link_key_type` (secure_simple_pairing.rs 77-92). -/
def linkKeyType (m : Method) (p256 : Curve) : KeyType :=
  match p256, m with
  | true, .justWork => .unauthenticatedP256
  | true, _ => .authenticatedP256
  | false, .justWork => .unauthenticatedP192
  | false, _ => .authenticatedP192

/-- Runs `p` `n` times: `for _ in 0..n`. -/
def repeatN : Nat → Prog Unit → Prog Unit
  | 0, _ => .ret ()
  | n + 1, p => do p; repeatN n p

/-- `PublicKey::size` (ec.rs): two coordinates of 24 or 32 octets. -/
def keyOctets (p256 : Curve) : Nat := if p256 then 64 else 48

/-- The number of chunks of 16 octets of a public key. -/
def keyChunks (p256 : Curve) : Nat := if p256 then 4 else 3

/-- `send_public_key` (secure_simple_pairing.rs 94-115). The answers are ignored. -/
def sendPublicKey (p256 : Curve) : Prog Unit := do
  let _ ← sendAccepted (.encapsulatedHeader (keyOctets p256)) .encapsulatedHeader
  repeatN (keyChunks p256) do
    let _ ← sendAccepted .encapsulatedPayload .encapsulatedPayload
    return ()

/-- `PublicKey::new(size)` (ec.rs): `None` for any other size. -/
def curveOfSize (n : Nat) : Option Curve := if n = 48 then some false else if n = 64 then some true else none

/-- `receive_public_key` (secure_simple_pairing.rs 117-139): `PublicKey::new(..).unwrap()` panics. -/
def receivePublicKey : Prog Curve := do
  match ← recvLmp isHeader with
  | .encapsulatedHeader n =>
    match curveOfSize n with
    | none => .panic
    | some c => do
      lmp (.accepted .encapsulatedHeader)
      repeatN (keyChunks c) do
        let _ ← recvLmp isPayload
        lmp (.accepted .encapsulatedPayload)
      return c
  | _ => .panic

/-- `confirm.commitment_value() != &commitment_value` is `todo!()`. -/
def checkCommitment : Lmp → Prog Unit
  | .confirm true => .ret ()
  | _ => .panic

/-- `receive_commitment` (secure_simple_pairing.rs 148-173) after the check of the commitment. -/
def receiveCommitment : Prog Unit := do
  lmp (.confirm true)
  let _ ← recvLmp isNumber
  lmp (.accepted .simplePairingNumber)
  let _ ← sendAccepted .number .simplePairingNumber
  return ()

/-- `send_commitment` (secure_simple_pairing.rs 175-194). -/
def sendCommitment (confirm : Lmp) : Prog Unit := do
  checkCommitment confirm
  let _ ← sendAccepted .number .simplePairingNumber
  let _ ← recvLmp isNumber
  lmp (.accepted .simplePairingNumber)

/-- `user_confirmation_request` (secure_simple_pairing.rs 196-224). -/
def userConfirmation : Prog Bool := do
  hci .userConfirmationRequest
  recvReply .confirmReply .confirmNeg

/-- `user_passkey_request` (secure_simple_pairing.rs 226-263). -/
def userPasskey : Prog Bool := .send (.hci .userPasskeyRequest) (.passkey .ret)

/-- `remote_oob_data_request` (secure_simple_pairing.rs 265-293). -/
def remoteOob : Prog Bool := do
  hci .remoteOobDataRequest
  recvReply .oobReply .oobNeg

/-- `PASSKEY_ENTRY_REPEAT_NUMBER - 1`: the rounds after the first (secure_simple_pairing.rs 296, 442). -/
def passkeyRounds : Nat := 19

/-- What the two sides do in the first stage of authentication: the method, and for each side whether it
is `KeyboardOnly` and whether it has out-of-band data. -/
structure Plan where
  method : Method
  kbdI : Bool
  kbdR : Bool
  oobI : Bool
  oobR : Bool
  deriving DecidableEq, Repr

def plan (i r : Params) : Plan :=
  ⟨authMethod i r, i.io = .keyboardOnly, r.io = .keyboardOnly, i.oob ≠ .notPresent, r.oob ≠ .notPresent⟩

/-- One further round of passkey entry, initiator (secure_simple_pairing.rs 442-449). -/
def passkeyRoundI : Prog Unit := do
  lmp (.confirm true)
  let c ← recvLmp isConfirm
  sendCommitment c

/-- One further round of passkey entry, responder (secure_simple_pairing.rs 638-641). -/
def passkeyRoundR : Prog Unit := do
  let c ← recvLmp isConfirm
  checkCommitment c
  receiveCommitment

/-- Authentication stage 1 of the initiator (secure_simple_pairing.rs 393-466). -/
def stage1I (p : Plan) : Prog Bool :=
  match p.method with
  | .justWork | .userConfirm => do
    let c ← recvLmp isConfirm
    sendCommitment c
    if ← userConfirmation then return true
    else do
      lmp .numericFailed
      return false
  | .passkeyEntry =>
    if p.kbdI then do
      if ← userPasskey then do
        lmp (.confirm true)
        let c ← recvLmp isConfirm
        sendCommitment c
        repeatN passkeyRounds passkeyRoundI
        return true
      else do
        lmp .passkeyFailed
        return false
    else do
      hci .userPasskeyNotification
      lmp (.confirm true)
      match ← recvLmp isConfirmOrNot with
      | .notAccepted _ => return false
      | c => do
        sendCommitment c
        repeatN passkeyRounds passkeyRoundI
        return true
  | .outOfBand => do
    let ok ← if p.oobI then remoteOob else pure true
    if ok then do
      lmp (.confirm true)
      let c ← recvLmp isConfirm
      sendCommitment c
      return true
    else return false

/-- The result of stage 1 of the responder: `Err`, or `Ok(negative_user_confirmation)`. -/
inductive StageR | err | ok (negative : Bool)
  deriving DecidableEq, Repr

/-- Authentication stage 1 of the responder (secure_simple_pairing.rs 592-656). -/
def stage1R (p : Plan) : Prog StageR :=
  match p.method with
  | .justWork | .userConfirm => do
    receiveCommitment
    let ok ← userConfirmation
    return .ok (!ok)
  | .passkeyEntry =>
    if p.kbdR then do
      let ok ← userPasskey
      let c ← recvLmp isConfirm
      if ok then do
        checkCommitment c
        receiveCommitment
        repeatN passkeyRounds passkeyRoundR
        return .ok false
      else do
        lmp (.notAccepted .simplePairingConfirm)
        return .err
    else do
      hci .userPasskeyNotification
      match ← recvLmp isConfirmOrFailed with
      | .passkeyFailed => return .err
      | c => do
        checkCommitment c
        receiveCommitment
        repeatN passkeyRounds passkeyRoundR
        return .ok false
  | .outOfBand => do
    let _ ← if p.oobR then remoteOob else pure true
    let c ← recvLmp isConfirm
    checkCommitment c
    receiveCommitment
    return .ok false

/-- The initiator after the exchange of IO capabilities and the choice of the curve
(secure_simple_pairing.rs 384-519). `private_key.shared_secret` is left out: what it computes, and that it
panics on some peer keys, is the subject of `Verif.Ec`; the type of its result is that of the own key. -/
def initiateRest (p : Plan) (p256 : Curve) : Prog Bool := do
  sendPublicKey p256
  let _ ← receivePublicKey
  if ← stage1I p then
    if ← sendAccepted .dhkeyCheck .dhkeyCheck then do
      let _ ← recvLmp isDhkey
      lmp (.accepted .dhkeyCheck)
      hci (.simplePairingComplete .success)
      let ok ← sendChallenge
      receiveChallenge
      if ok then do
        hci (.linkKeyNotification (linkKeyType p.method p256))
        return true
      else return false
    else do
      hci (.simplePairingComplete .authenticationFailure)
      return false
  else do
    hci (.simplePairingComplete .authenticationFailure)
    return false

/-- `secure_simple_pairing::initiate` (secure_simple_pairing.rs 298-520). -/
def sspInitiate (f : Feats) : Prog Bool := do
  hci .ioCapabilityRequest
  let c ← recvHci (fun k => k = .ioReply || k = .ioNeg)
  if c.kind = .ioReply then do
    hci (.answer c.kind .success)
    lmp (.ioReq (some c.params))
    match ← recvLmp isIoRes with
    | .ioRes (some r) => do
      hci (.ioCapabilityResponse r)
      let p256 ← supportedOnBoth f 1 Word.b3
      initiateRest (plan c.params r) p256
    | _ => .panic
  else do
    hci (.answer c.kind .success)
    hci (.simplePairingComplete .authenticationFailure)
    return false

/-- The responder after the exchange of IO capabilities (secure_simple_pairing.rs 577-730). -/
def respondRest (p : Plan) : Prog Bool := do
  let p256 ← receivePublicKey
  sendPublicKey p256
  match ← stage1R p with
  | .err => do
    hci (.simplePairingComplete .authenticationFailure)
    return false
  | .ok negative =>
    match ← recvLmp isFailedOrDhkey with
    | .numericFailed => do
      hci (.simplePairingComplete .authenticationFailure)
      return false
    | _ =>
      if negative then do
        lmp (.notAccepted .dhkeyCheck)
        hci (.simplePairingComplete .authenticationFailure)
        return false
      else do
        lmp (.accepted .dhkeyCheck)
        let _ ← sendAccepted .dhkeyCheck .dhkeyCheck
        hci (.simplePairingComplete .success)
        receiveChallenge
        let ok ← sendChallenge
        if ok then do
          hci (.linkKeyNotification (linkKeyType p.method p256))
          return true
        else return false

/-- `secure_simple_pairing::respond` (secure_simple_pairing.rs 522-731). -/
def sspRespond (i : Option Params) : Prog Bool :=
  match i with
  | none => .panic
  | some i => do
    hci (.ioCapabilityResponse i)
    hci .ioCapabilityRequest
    let c ← recvHci (fun k => k = .ioReply || k = .ioNeg)
    if c.kind = .ioReply then do
      hci (.answer c.kind .success)
      lmp (.ioRes (some c.params))
      respondRest (plan i c.params)
    else do
      hci (.answer c.kind .success)
      lmp .notAcceptedExt
      hci (.simplePairingComplete .authenticationFailure)
      return false

/-- `authentication::initiate` (authentication.rs 47-107). -/
def authInitiate (f : Feats) : Prog Unit := do
  let c ← recvHci (fun k => k = .authenticationRequested)
  hci (.answer c.kind .success)
  hci .linkKeyRequest
  let status ← do
    if ← recvReply .linkKeyReply .linkKeyNeg then
      if ← sendChallenge then pure Status.success else pure Status.pinOrKeyMissing
    else
      let ok ← do
        if ← supportedOnBoth f 1 Word.b0 then sspInitiate f else legacyInitiate
      pure (if ok then Status.success else Status.authenticationFailure)
  hci (.authenticationComplete status)

/-- `authentication::respond` (authentication.rs 109-170). -/
def authRespond : Prog Unit := do
  match ← recvLmp isAuthentication with
  | .auRand => do
    hci .linkKeyRequest
    if ← recvReply .linkKeyReply .linkKeyNeg then lmp .sres
    else lmp (.notAccepted .auRand)
  | .ioReq p => do
    let _ ← sspRespond p
    return ()
  | _ => do
    let _ ← legacyRespond
    return ()

/-! ## encryption.rs -/

/-- The choice of the cipher at the end of both encryption procedures (encryption.rs 56-57, 89-90). -/
def aesCcm (f : Feats) : Prog Bool := do
  if ← supportedOnBoth f 1 Word.b3 then supportedOnBoth f 2 Word.b8 else return false

/-- `encryption::initiate` (encryption.rs 25-68). -/
def encInitiate (f : Feats) : Prog Unit := do
  let c ← recvHci (fun k => k = .setConnectionEncryption)
  hci (.answer c.kind .success)
  let _ ← sendAccepted .encryptionModeReq .encryptionModeReq
  let _ ← sendAccepted .encryptionKeySizeReq .encryptionKeySizeReq
  let _ ← sendAccepted .startEncryptionReq .startEncryptionReq
  let aes ← aesCcm f
  hci (.encryptionChange aes)

/-- `encryption::respond` (encryption.rs 70-101). -/
def encRespond (f : Feats) : Prog Unit := do
  let _ ← recvLmp isModeReq
  lmp (.accepted .encryptionModeReq)
  let _ ← recvLmp isKeySizeReq
  lmp (.accepted .encryptionKeySizeReq)
  let _ ← recvLmp isStartReq
  lmp (.accepted .startEncryptionReq)
  let aes ← aesCcm f
  hci (.encryptionChange aes)

/-! ## Running a procedure -/

/-- Where a procedure stops: at an `.await`, at its end, or in a panic. -/
inductive Stop | await (p : Prog Unit) | done | panic

/-- Runs the code up to the next `.await`, with what it sends. -/
def flush : Prog Unit → List Out × Stop
  | .ret _ => ([], .done)
  | .send o k => (o :: (flush k).1, (flush k).2)
  | .panic => ([], .panic)
  | p => ([], .await p)

/-- One of the five concurrent procedures of a link: `loop { procedure.await }` (procedure/mod.rs 124).
`busy` is a ghost: the procedure is past its first `.await`. -/
structure Proc where
  top : Prog Unit
  cur : Prog Unit
  busy : Bool

/-- The result of polling a future that is ready: the code goes on with `next`; the slot and the queue
have been changed. `yield` means the future consumed packets and is still pending. -/
structure Take where
  next : Prog Unit
  slot : Option Cmd
  queue : List Lmp
  yield : Bool

/-- Polls the future a suspended procedure waits for, against the command slot and the packet queue of
the link: `poll_hci_command` (manager.rs 64-75), `poll_lmp_packet` (manager.rs 77-89), and the future of
`send_accepted_lmp_packet` (procedure/mod.rs 91-108), which drops an answer that names another opcode. -/
def offer (p : Prog Unit) (slot : Option Cmd) (queue : List Lmp) : Option Take :=
  match p with
  | .recvHci acc k =>
    match slot with
    | some c => if acc c.kind then some ⟨k c, none, queue, false⟩ else none
    | none => none
  | .recvLmp acc k =>
    match queue with
    | l :: q => if acc l then some ⟨k l, slot, q, false⟩ else none
    | [] => none
  | .wait op k =>
    match queue with
    | .accepted o :: q =>
      if o = op then some ⟨k true, slot, q, false⟩
      else match q with
        | .notAccepted o' :: q' =>
          if o' = op then some ⟨k false, slot, q', false⟩ else some ⟨.wait op k, slot, q', true⟩
        | _ => some ⟨.wait op k, slot, q, true⟩
    | .notAccepted o :: q =>
      if o = op then some ⟨k false, slot, q, false⟩ else some ⟨.wait op k, slot, q, true⟩
    | _ => none
  | .passkey k =>
    match slot with
    | some c =>
      if c.kind = .passkeyReply then some ⟨.send (.hci (.answer c.kind .success)) (k true), none, queue, false⟩
      else if c.kind = .passkeyNeg then
        some ⟨.send (.hci (.answer c.kind .success)) (k false), none, queue, false⟩
      else if c.kind = .keypress then
        some ⟨.send (.hci (.answer c.kind .success)) (.passkey k), none, queue, false⟩
      else none
    | none => none
  | _ => none

/-- The state of a link as its procedures see it, with what they have sent. -/
structure Local where
  slot : Option Cmd
  queue : List Lmp
  outs : List Out

/-- `poll` of one procedure: it runs until its future is pending. `none` is a panic. Each round consumes a
command or a packet, so `fuel` need only exceed their number. -/
def pollProc : Nat → Proc → Local → Option (Proc × Local)
  | 0, pr, s => some (pr, s)
  | n + 1, pr, s =>
    match offer pr.cur s.slot s.queue with
    | none => some (pr, s)
    | some t =>
      if t.yield then some (pr, { s with queue := t.queue })
      else
        match flush t.next with
        | (o, .await p) => pollProc n { pr with cur := p, busy := true } ⟨t.slot, t.queue, s.outs ++ o⟩
        | (o, .done) => pollProc n { pr with cur := pr.top, busy := false } ⟨t.slot, t.queue, s.outs ++ o⟩
        | (_, .panic) => none

/-- Enough for `pollProc`. -/
def pollFuel (s : Local) : Nat := s.queue.length + 2

/-- `Join::poll` (procedure/mod.rs 135-141): the five procedures in turn. -/
def pollAll : List Proc → Local → Option (List Proc × Local)
  | [], s => some ([], s)
  | p :: ps, s =>
    match pollProc (pollFuel s) p s with
    | none => none
    | some (p', s') =>
      match pollAll ps s' with
      | none => none
      | some (ps', s'') => some (p' :: ps', s'')

/-- A fresh procedure. -/
def Proc.start (p : Prog Unit) : Proc := ⟨p, p, false⟩

/-- `procedure::run` (procedure/mod.rs 150-158). -/
def procedures (f : Feats) : List Proc :=
  [.start (authInitiate f), .start authRespond, .start (encInitiate f), .start (encRespond f), .start (featuresRespond f)]

end Verif.Lmp
