#!/usr/bin/env python3
"""Translate the transcripts of /repo/rust/test into Lean examples.

The `mod tests` of secure_simple_pairing.rs and encryption.rs name, for each transcript, the
procedure, the features of both sides, and whether the test is marked `should_panic`.
"""
import re

ROOT = '/repo/rust'
OUT = '/verif/lean/Verif/Lmp/Vectors.lean'

IO = {'DisplayOnly': 'displayOnly', 'DisplayYesNo': 'displayYesNo', 'KeyboardOnly': 'keyboardOnly',
      'NoInputNoOutput': 'noInputNoOutput'}
IOS = ['displayOnly', 'displayYesNo', 'keyboardOnly', 'noInputNoOutput']
OOB = {'NotPresent': 'notPresent', 'P192Present': 'p192', 'P256Present': 'p256',
       'P192And256Present': 'both'}
OOBS = ['notPresent', 'p192', 'p256', 'both']
AUTH = {'NoBonding': 'noBonding', 'NoBondingMitmProtection': 'noBondingMitm',
        'DedicatedBonding': 'dedicated', 'DedicatedBondingMitmProtection': 'dedicatedMitm',
        'GeneralBonding': 'general', 'GeneralBondingMitmProtection': 'generalMitm'}
AUTHS = ['noBonding', 'noBondingMitm', 'dedicated', 'dedicatedMitm', 'general', 'generalMitm']
OPCODE = {'EncapsulatedHeader': 'encapsulatedHeader', 'EncapsulatedPayload': 'encapsulatedPayload',
          'SimplePairingConfirm': 'simplePairingConfirm', 'SimplePairingNumber': 'simplePairingNumber',
          'DhkeyCheck': 'dhkeyCheck', 'InRand': 'inRand', 'AuRand': 'auRand',
          'EncryptionModeReq': 'encryptionModeReq', 'EncryptionKeySizeReq': 'encryptionKeySizeReq',
          'StartEncryptionReq': 'startEncryptionReq'}
KIND = {'AuthenticationRequested': 'authenticationRequested',
        'SetConnectionEncryption': 'setConnectionEncryption',
        'LinkKeyRequestReply': 'linkKeyReply', 'LinkKeyRequestNegativeReply': 'linkKeyNeg',
        'PinCodeRequestReply': 'pinReply', 'PinCodeRequestNegativeReply': 'pinNeg',
        'IoCapabilityRequestReply': 'ioReply', 'IoCapabilityRequestNegativeReply': 'ioNeg',
        'UserConfirmationRequestReply': 'confirmReply',
        'UserConfirmationRequestNegativeReply': 'confirmNeg',
        'UserPasskeyRequestReply': 'passkeyReply', 'UserPasskeyRequestNegativeReply': 'passkeyNeg',
        'RemoteOobDataRequestReply': 'oobReply', 'RemoteOobDataRequestNegativeReply': 'oobNeg',
        'SendKeypressNotification': 'keypress'}
STATUS = {'Success': 'success', 'AuthenticationFailure': 'authenticationFailure',
          'PinOrKeyMissing': 'pinOrKeyMissing'}
KEYTYPE = {'Combination': 'combination', 'UnauthenticatedP192': 'unauthenticatedP192',
           'AuthenticatedP192': 'authenticatedP192', 'UnauthenticatedP256': 'unauthenticatedP256',
           'AuthenticatedP256': 'authenticatedP256'}
PLAIN = {'InRand': 'inRand', 'CombKey': 'combKey', 'AuRand': 'auRand', 'Sres': 'sres',
         'EncapsulatedPayload': 'encapsulatedPayload', 'SimplePairingNumber': 'number',
         'NumericComparisonFailed': 'numericFailed', 'PasskeyFailed': 'passkeyFailed',
         'DhkeyCheck': 'dhkeyCheck', 'EncryptionModeReq': 'encryptionModeReq',
         'EncryptionKeySizeReq': 'encryptionKeySizeReq', 'StartEncryptionReq': 'startEncryptionReq',
         'NotAcceptedExt': 'notAcceptedExt'}
ASK = {'LinkKeyRequest': 'linkKeyRequest', 'PinCodeRequest': 'pinCodeRequest',
       'IoCapabilityRequest': 'ioCapabilityRequest',
       'UserConfirmationRequest': 'userConfirmationRequest',
       'UserPasskeyRequest': 'userPasskeyRequest', 'RemoteOobDataRequest': 'remoteOobDataRequest',
       'UserPasskeyNotification': 'userPasskeyNotification'}


def braces(text, i):
    depth = 0
    j = i
    while True:
        if text[j] == '{':
            depth += 1
        if text[j] == '}':
            depth -= 1
            if depth == 0:
                return text[i + 1:j], j + 1
        j += 1


def fields(text):
    out, depth, cur = {}, 0, ''
    for c in text + ',':
        if c in '[({':
            depth += 1
        if c in '])}':
            depth -= 1
        if c == ',' and depth == 0:
            if cur.strip():
                k, v = cur.split(':', 1)
                out[k.strip()] = v.strip()
            cur = ''
        else:
            cur += c
    return out


def last(v):
    return v.split('::')[-1].strip()


def params(f):
    oob = f.get('oob_present', f.get('oob_data_present'))
    return (f'⟨.{IO[last(f["io_capability"])]}, .{OOB[last(oob)]}, '
            f'.{AUTH[last(f["authentication_requirements"])]}⟩')


def octets(f):
    io, oob, auth = (int(f[k], 0) for k in
                     ('io_capabilities', 'oob_authentication_data', 'authentication_requirement'))
    if io < 4 and oob < 4 and auth < 6:
        return f'(some ⟨.{IOS[io]}, .{OOBS[oob]}, .{AUTHS[auth]}⟩)'
    return 'none'


def zero(v):
    assert re.fullmatch(r'\[0; \d+\]', v), v
    return 'true'


def lmp(name, f):
    if name in PLAIN:
        return '.' + PLAIN[name]
    if name == 'Accepted':
        return f'(.accepted .{OPCODE.get(last(f["accepted_opcode"]), "other")})'
    if name == 'NotAccepted':
        return f'(.notAccepted .{OPCODE.get(last(f["not_accepted_opcode"]), "other")})'
    if name == 'IoCapabilityReq':
        return f'(.ioReq {octets(f)})'
    if name == 'IoCapabilityRes':
        return f'(.ioRes {octets(f)})'
    if name == 'EncapsulatedHeader':
        return f'(.encapsulatedHeader {f["payload_length"]})'
    if name == 'SimplePairingConfirm':
        return f'(.confirm {zero(f["commitment_value"])})'
    return '.other'


def event(name, f):
    if name in ASK:
        return '.' + ASK[name]
    if name == 'IoCapabilityResponse':
        return f'(.ioCapabilityResponse {params(f)})'
    if name == 'SimplePairingComplete':
        return f'(.simplePairingComplete .{STATUS[last(f["status"])]})'
    if name == 'AuthenticationComplete':
        return f'(.authenticationComplete .{STATUS[last(f["status"])]})'
    if name == 'LinkKeyNotification':
        return f'(.linkKeyNotification .{KEYTYPE[last(f["key_type"])]})'
    if name == 'EncryptionChange':
        aes = {'On': 'false', 'BrEdrAesCcm': 'true'}[last(f['encryption_enabled'])]
        return f'(.encryptionChange {aes})'
    for suffix in ('Complete', 'Status'):
        if name.endswith(suffix) and name[:-len(suffix)] in KIND:
            return f'(.answer .{KIND[name[:-len(suffix)]]} .{STATUS[last(f["status"])]})'
    return None


def items(text):
    out, i = [], 0
    while True:
        m = re.compile(r'\s*(?:(Lower Tester -> IUT|Upper Tester -> IUT|IUT -> Lower Tester|'
                       r'IUT -> Upper Tester): (\w+) (?=\{)|repeat (\d+) times(?: with \(.*?\))? '
                       r'(?=\{\n))').match(text, i)
        if not m:
            assert not text[i:].strip(), text[i:i + 80]
            return out
        inner, i = braces(text, m.end())
        if m.group(3):
            out.append((int(m.group(3)), items(inner)))
            continue
        who, name, f = m.group(1), m.group(2), fields(inner)
        if who == 'Lower Tester -> IUT':
            out.append(f'.fromPeer {lmp(name, f)}')
        elif who == 'Upper Tester -> IUT':
            if name not in KIND:
                out.append('.unknown')
            else:
                p = params(f) if name == 'IoCapabilityRequestReply' else 'noParams'
                out.append(f'.fromHost ⟨.{KIND[name]}, 0, {p}⟩')
        elif who == 'IUT -> Lower Tester':
            out.append(f'.toPeer {lmp(name, f)}')
        else:
            e = event(name, f)
            out.append('.unknown' if e is None else f'.toHost {e}')


def transcript(l):
    """A Lean expression for a list of items, with its repetitions."""
    parts, run = [], []
    for x in l + [None]:
        if isinstance(x, str):
            run.append(x)
            continue
        if run:
            parts.append('[' + ',\n     '.join(run) + ']')
        run = []
        if x:
            parts.append(f'again {x[0]} [' + ', '.join(x[1]) + ']')
    return '(' + ' ++\n    '.join(parts) + ')'


def features(body, pre):
    word = lambda a, b, c: '⟨' + ', '.join('true' if x else 'false' for x in (a, b, c)) + '⟩'
    sc1 = f'.with_{pre}page_1_feature(SecureConnectionsHostSupport)' in body
    sc2 = f'.with_{pre}page_2_feature(SecureConnectionsControllerSupport)' in body
    return f'⟨{word(True, sc1, False)}, {word(False, False, sc2)}, {word(False, False, False)}⟩'


def main():
    out = []
    counts = [0, 0]
    for file, names in (('secure_simple_pairing.rs', ('(authInitiate own)', 'authRespond')),
                        ('encryption.rs', ('(encInitiate own)', '(encRespond own)'))):
        text = open(f'{ROOT}/src/lmp/procedure/{file}').read()
        text = text[text.index('mod tests'):]
        out.append(f'/-! ### {file} -/\n')
        for m in re.finditer(r'#\[test\]\s*(#\[should_panic\][^\n]*\s*)?fn (\w+)\(\) ', text):
            body, _ = braces(text, m.end())
            inc = re.search(r'include!\("../../../test/(.*?)"\)', body)
            if not inc:
                continue
            src = open(f'{ROOT}/test/{inc.group(1)}').read()
            src = re.sub(r'//[^\n]*', '', src)
            src = re.sub(r'->(?=\w)', '-> ', src)
            src, _ = braces(src, src.index('{'))
            src = src[src.index(',', src.index(',') + 1) + 1:]
            prog = names[0] if 'procedure = initiate' in body else names[1]
            ok = 'false' if m.group(1) else 'true'
            counts[bool(m.group(1))] += 1
            out.append(f'/-- {m.group(2)} (rust/test/{inc.group(1)})' +
                       (', marked `should_panic`' if m.group(1) else '') + '. -/')
            out.append('example :\n'
                       f'  let own : Feats := {features(body, "")}\n'
                       f'  let peer : Feats := {features(body, "peer_")}\n'
                       f'  replay peer {prog}\n    {transcript(items(src))} = {ok} := by\n  decide +kernel\n')
    head = f'''import Verif.Lmp.Model

/-!
# The project's transcripts of pairing and encryption, replayed on the model

Generated by `tools/gen_lmp_vectors.py` from `/repo/rust/test/{{SP,ENC}}/*.in` and the `mod tests`
of `secure_simple_pairing.rs` and `encryption.rs`. The model goes through the {counts[0]} transcripts
the code goes through, and it fails on the {counts[1]} the code is known to fail on (marked
`should_panic`). These are tests of the model, not claims about it.

As in the model, transaction identifiers, random numbers, keys and the displayed value are left
out.
-/

namespace Verif.Lmp.Vectors

open Verif.Lmp

/-- A line of a transcript. `unknown` is a line the model has no word for; no run agrees with it. -/
inductive Item
  | fromPeer (p : Lmp)
  | fromHost (c : Cmd)
  | toPeer (p : Lmp)
  | toHost (e : Ev)
  | unknown

/-- The parameters of a command that has none. -/
def noParams : Params := ⟨.displayOnly, .notPresent, .noBonding⟩

/-- The procedure under test, `none` when it has ended, and what it has sent so far that the
transcript has not mentioned yet: the two queues of `TestContext` (test/context.rs). -/
structure Bench where
  cur : Option (Prog Unit)
  events : List Ev
  packets : List Lmp

/-- Puts what was sent on the two queues. -/
def Bench.sent (b : Bench) : List Out → Bench
  | [] => b
  | .hci e :: os => ({{ b with events := b.events ++ [e] }} : Bench).sent os
  | .lmp p :: os => ({{ b with packets := b.packets ++ [p] }} : Bench).sent os

/-- `poll` (test/context.rs): the procedure runs until it is pending. `peer_extended_features`
of the test context knows the features of the peer, so the code does not ask for them; the model
always asks, and the answer is given here, off the record. `none` is a panic. -/
def poll (peer : Feats) : Nat → Bench → Option Cmd → List Lmp → Option (Bench × Option Cmd × List Lmp)
  | 0, b, slot, queue => some (b, slot, queue)
  | n + 1, b, slot, queue =>
    match b.cur with
    | none => some (b, slot, queue)
    | some p =>
      match offer p slot queue with
      | none => some (b, slot, queue)
      | some t =>
        if t.yield then some (b, t.slot, t.queue)
        else
          match flush t.next with
          | (_, .panic) => none
          | (o, .done) => some (({{ b with cur := none }} : Bench).sent o, t.slot, t.queue)
          | (o, .await q) =>
            match o.getLast? with
            | some (.lmp (.featuresReq page)) =>
              poll peer n (({{ b with cur := some q }} : Bench).sent o.dropLast) t.slot
                (.featuresRes (peer.page page) :: t.queue)
            | _ => poll peer n (({{ b with cur := some q }} : Bench).sent o) t.slot t.queue

/-- One line of a transcript (test/sequence.rs). An input must be consumed. -/
def line (peer : Feats) (b : Bench) : Item → Option Bench
  | .fromPeer p =>
    match poll peer 10 b none [p] with
    | some (b, none, []) => some b
    | _ => none
  | .fromHost c =>
    match poll peer 10 b (some c) [] with
    | some (b, none, []) => some b
    | _ => none
  | .toPeer p =>
    match b.packets with
    | q :: qs => if p = q then some {{ b with packets := qs }} else none
    | [] => none
  | .toHost e =>
    match b.events with
    | f :: fs => if e = f then some {{ b with events := fs }} else none
    | [] => none
  | .unknown => none

/-- The lines of a transcript. -/
def lines (peer : Feats) : List Item → Bench → Option Bench
  | [], b => some b
  | i :: is, b =>
    match line peer b i with
    | some b => lines peer is b
    | none => none

/-- `repeat n times`. -/
def again (n : Nat) (l : List Item) : List Item := (List.replicate n l).flatten

/-- `sequence!` (test/sequence.rs): the whole transcript, at the end of which the procedure has
ended and nothing it sent is left over. -/
def replay (peer : Feats) (p : Prog Unit) (l : List Item) : Bool :=
  match lines peer l ⟨some p, [], []⟩ with
  | some b => b.cur.isNone && b.events.isEmpty && b.packets.isEmpty
  | none => false

'''
    with open(OUT, 'w') as f:
        f.write(head + '\n'.join(out) + '\nend Verif.Lmp.Vectors\n')
    print(counts)


main()
