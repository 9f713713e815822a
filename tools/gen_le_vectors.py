#!/usr/bin/env python3
"""Translate the unit tests of /repo/test/controller/le into Lean examples.

Each TEST_F that is a straight line of LE commands becomes a list of
(command, expected status) pairs, and an example that the model answers the
commands of the test, in a fresh controller, with those statuses.
"""
import glob
import os
import re

SRC = '/repo/test/controller/le'
OUT = '/verif/lean/Verif/Le/Vectors.lean'
SKIP = {'le_scanning_filter_duplicates_test.cc', 'rpa_generation_test.cc'}

ENUM = {
    'OwnAddressType': {'PUBLIC_DEVICE_ADDRESS': 'pub', 'RANDOM_DEVICE_ADDRESS': 'random',
                       'RESOLVABLE_OR_PUBLIC_ADDRESS': 'resolvableOrPublic',
                       'RESOLVABLE_OR_RANDOM_ADDRESS': 'resolvableOrRandom'},
    'PeerAddressType': {'PUBLIC_DEVICE_OR_IDENTITY_ADDRESS': 'pub',
                        'RANDOM_DEVICE_OR_IDENTITY_ADDRESS': 'random'},
    'AdvertiserAddressType': {'PUBLIC_DEVICE_OR_IDENTITY_ADDRESS': 'pub',
                              'RANDOM_DEVICE_OR_IDENTITY_ADDRESS': 'random'},
    'AddressType': {'PUBLIC_DEVICE_ADDRESS': 'publicDevice', 'RANDOM_DEVICE_ADDRESS': 'randomDevice'},
    'FilterAcceptListAddressType': {'PUBLIC': 'pub', 'RANDOM': 'random',
                                    'ANONYMOUS_ADVERTISERS': 'anonymous'},
    'AdvertisingType': {'ADV_IND': 'advInd'},
    'AdvertisingFilterPolicy': {'ALL_DEVICES': 'allDevices', 'LISTED_SCAN': 'listedScan'},
    'LeScanningFilterPolicy': {'ACCEPT_ALL': 'acceptAll',
                               'FILTER_ACCEPT_LIST_ONLY': 'filterAcceptListOnly'},
    'InitiatorFilterPolicy': {'USE_PEER_ADDRESS': 'usePeerAddress',
                              'USE_FILTER_ACCEPT_LIST_WITH_PEER_ADDRESS':
                                  'useFilterAcceptListWithPeerAddress'},
    'Operation': {'INTERMEDIATE_FRAGMENT': 'intermediateFragment', 'FIRST_FRAGMENT': 'firstFragment',
                  'LAST_FRAGMENT': 'lastFragment', 'COMPLETE_ADVERTISEMENT': 'completeAdvertisement',
                  'UNCHANGED_DATA': 'unchangedData'},
    'PrimaryPhyType': {'LE_1M': 'le1m', 'LE_CODED': 'leCoded'},
    'SecondaryPhyType': {'NO_PACKETS': 'noPackets', 'LE_1M': 'le1m', 'LE_2M': 'le2m',
                         'LE_CODED': 'leCoded'},
    'FilterDuplicates': {'DISABLED': 'disabled', 'ENABLED': 'enabled',
                         'RESET_EACH_PERIOD': 'resetEachPeriod'},
    'LeScanType': {'PASSIVE': 'passive', 'ACTIVE': 'active'},
    'FragmentPreference': {'CONTROLLER_MAY_FRAGMENT': None},
    'ErrorCode': {'SUCCESS': 'success', 'UNKNOWN_CONNECTION': 'unknownConnection',
                  'MEMORY_CAPACITY_EXCEEDED': 'memoryCapacityExceeded',
                  'COMMAND_DISALLOWED': 'commandDisallowed',
                  'UNSUPPORTED_FEATURE_OR_PARAMETER_VALUE': 'unsupportedFeatureOrParameterValue',
                  'INVALID_HCI_COMMAND_PARAMETERS': 'invalidHciCommandParameters',
                  'UNKNOWN_ADVERTISING_IDENTIFIER': 'unknownAdvertisingIdentifier',
                  'PACKET_TOO_LONG': 'packetTooLong'},
}
# hci_packets.pdl, enum PeriodicSyncCteType
CTE = {'AVOID_AOA_CONSTANT_TONE_EXTENSION': 1,
       'AVOID_AOD_CONSTANT_TONE_EXTENSION_WITH_ONE_US_SLOTS': 2,
       'AVOID_AOD_CONSTANT_TONE_EXTENSION_WITH_TWO_US_SLOTS': 4, 'AVOID_TYPE_THREE_CONSTANT_TONE_EXTENSION': 8,
       'AVOID_NO_CONSTANT_TONE_EXTENSION': 16}
# test_helpers.h 19-27
MASK = {'0': 0, 'CONNECTABLE': 1, 'SCANNABLE': 2, 'DIRECTED': 4, 'HIGH_DUTY_CYCLE': 8, 'LEGACY': 16,
        'ANONYMOUS': 32, 'TX_POWER': 64}
PROPS = {'le_filter_accept_list_size': 'filterAcceptListSize',
         'le_resolving_list_size': 'resolvingListSize',
         'le_periodic_advertiser_list_size': 'periodicAdvertiserListSize',
         'le_max_advertising_data_length': 'maxAdvertisingDataLength',
         'le_num_supported_advertising_sets': 'numSupportedAdvertisingSets'}
DEFAULT = {'filterAcceptListSize': 16, 'resolvingListSize': 16, 'periodicAdvertiserListSize': 8,
           'maxAdvertisingDataLength': 512, 'numSupportedAdvertisingSets': 16}


def split(text, sep=','):
    out, depth, cur = [], 0, ''
    text = text.replace('std::array<uint8_t, 16>', 'IRK')
    for c in text:
        if c in '({[':
            depth += 1
        if c in ')}]':
            depth -= 1
        if c == sep and depth == 0:
            out.append(cur.strip())
            cur = ''
        else:
            cur += c
    if cur.strip():
        out.append(cur.strip())
    return out


class Test:
    def __init__(self, props):
        self.props = dict(props)
        self.vars = {}
        self.steps = []   # (config, cmd, status or None)

    def num(self, a):
        a = a.strip()
        if a in ('true', 'false'):
            return {'true': 1, 'false': 0}[a]
        m = re.fullmatch(r'properties_\.(\w+)', a)
        if m:
            n = PROPS[m.group(1)]
            return self.props.get(n, DEFAULT[n])
        m = re.fullmatch(r'static_cast<uint8_t>\((.*)\)', a)
        if m:
            return self.num(m.group(1))
        m = re.search(r'PeriodicSyncCteType::\s*(\w+)', a)
        if m:
            return sum(CTE[x] for x in re.findall(r'PeriodicSyncCteType::\s*(\w+)', a))
        return int(a, 0)

    def lit(self, a):
        n = self.num(a)
        return hex(n) if n > 15 else str(n)

    def boolean(self, a):
        return {'true': 'true', 'false': 'false'}[a]

    def enum(self, a):
        t, v = a.split('::')
        return '.' + ENUM[t][v]

    def addr(self, a):
        if a == 'Address::kEmpty':
            return '0'
        m = re.fullmatch(r'Address\{(.*)\}', a)
        xs = [int(x, 0) for x in m.group(1).split(',')]
        return str(sum(x << (8 * i) for i, x in enumerate(xs)))

    def irk(self, a):
        m = re.fullmatch(r'IRK\{(.*)\}', a)
        xs = [int(x, 0) for x in m.group(1).split(',') if x.strip()]
        return str(sum(x << (8 * i) for i, x in enumerate(xs)))

    def data(self, a):
        xs = self.vars[a] if a in self.vars else \
            [int(x, 0) for x in a.strip('{}').split(',') if x.strip()]
        lead = list(xs)
        while len(lead) > 3 and lead[-1] == 0:
            lead.pop()
        s = '[' + ', '.join(map(str, lead)) + ']'
        return s if len(lead) == len(xs) else f'({s} ++ List.replicate {len(xs) - len(lead)} 0)'

    def calls(self, a, name):
        return [split(x[len(name) + 1:-1]) for x in split(a[1:-1])]

    def peer(self, a):
        x, t = split(a[len('AddressWithType{'):-1])
        return f'⟨{self.addr(x)}, {self.enum(t)}⟩'

    def properties(self, a):
        m = re.fullmatch(r'MakeAdvertisingEventProperties\((.*)\)', a)
        n = sum(MASK[x.strip()] for x in m.group(1).split('|') if x.strip())
        bits = ', '.join('true' if n >> i & 1 else 'false' for i in range(7))
        return f'⟨{bits}⟩'

    def command(self, f, a):
        L, E, B, A = self.lit, self.enum, self.boolean, self.addr
        if f == 'LeSetRandomAddress':
            return f'.setRandomAddress {A(a[0])}'
        if f == 'LeAddDeviceToResolvingList':
            return f'.addResolving {E(a[0])} {A(a[1])} {self.irk(a[2])} {self.irk(a[3])}'
        if f == 'LeRemoveDeviceFromResolvingList':
            return f'.removeResolving {E(a[0])} {A(a[1])}'
        if f == 'LeClearResolvingList':
            return '.clearResolving'
        if f == 'LeSetAddressResolutionEnable':
            return f'.setAddressResolutionEnable {B(a[0])}'
        if f == 'LeAddDeviceToFilterAcceptList':
            return f'.addFilterAccept {E(a[0])} {A(a[1])}'
        if f == 'LeRemoveDeviceFromFilterAcceptList':
            return f'.removeFilterAccept {E(a[0])} {A(a[1])}'
        if f == 'LeClearFilterAcceptList':
            return '.clearFilterAccept'
        if f == 'LeAddDeviceToPeriodicAdvertiserList':
            return f'.addPeriodicAdvertiser ⟨{E(a[0])}, {A(a[1])}, {L(a[2])}⟩'
        if f == 'LeRemoveDeviceFromPeriodicAdvertiserList':
            return f'.removePeriodicAdvertiser ⟨{E(a[0])}, {A(a[1])}, {L(a[2])}⟩'
        if f == 'LeClearPeriodicAdvertiserList':
            return '.clearPeriodicAdvertiser'
        if f == 'LePeriodicAdvertisingCreateSync':
            o = split(re.fullmatch(r'PeriodicAdvertisingOptions\((.*)\)', a[0]).group(1))
            o = '⟨' + ', '.join(o or ['false'] * 3) + '⟩'
            return (f'.createSync {o} ⟨{E(a[2])}, {A(a[3])}, {L(a[1])}⟩ {L(a[5])} {L(a[6])}')
        if f == 'LePeriodicAdvertisingCreateSyncCancel':
            return '.createSyncCancel'
        if f == 'LeSetScanParameters':
            return f'.setScanParameters {E(a[0])} {L(a[1])} {L(a[2])} {E(a[3])} {E(a[4])}'
        if f == 'LeSetScanEnable':
            return f'.setScanEnable {B(a[0])} {B(a[1])}'
        if f == 'LeSetExtendedScanParameters':
            ps = ', '.join(f'⟨{E(x)}, {L(y)}, {L(z)}⟩'
                           for x, y, z in self.calls(a[3], 'MakeScanningPhyParameters'))
            return f'.setExtendedScanParameters {E(a[0])} {E(a[1])} {L(a[2])} [{ps}]'
        if f == 'LeSetExtendedScanEnable':
            return f'.setExtendedScanEnable 0 {B(a[0])} {E(a[1])} {L(a[2])} {L(a[3])}'
        if f == 'LeCreateConnection':
            ps = ', '.join(L(x) for x in a[0:2] + a[5:11])
            return f'.createConnection rpa {E(a[2])} {self.peer(a[3])} {E(a[4])} ⟨{ps}⟩'
        if f == 'LeCreateConnectionCancel':
            return '.createConnectionCancel'
        if f == 'LeExtendedCreateConnection':
            ps = ', '.join('⟨' + ', '.join(L(x) for x in c) + '⟩'
                           for c in self.calls(a[4], 'MakeInitiatingPhyParameters'))
            return (f'.extendedCreateConnection rpa {E(a[0])} {E(a[1])} {self.peer(a[2])} '
                    f'{L(a[3])} [{ps}]')
        if f == 'LeSetAdvertisingParameters':
            return (f'.setAdvertisingParameters ⟨{L(a[0])}, {L(a[1])}, {E(a[2])}, {E(a[3])}, '
                    f'{E(a[4])}, {A(a[5])}, {L(a[6])}, {E(a[7])}⟩')
        if f == 'LeSetAdvertisingEnable':
            return f'.setAdvertisingEnable 0 (fun _ => rpa) {B(a[0])}'
        if f == 'LeSetAdvertisingSetRandomAddress':
            return f'.setAdvertisingSetRandomAddress {L(a[0])} {A(a[1])}'
        if f == 'LeSetExtendedAdvertisingParameters':
            return (f'.setExtAdvertisingParameters {L(a[0])} ⟨{self.properties(a[1])}, {L(a[2])}, '
                    f'{L(a[3])}, {L(a[4])}, {E(a[5])}, {E(a[6])}, {A(a[7])}, {E(a[8])}, {L(a[9])}, '
                    f'{E(a[10])}, {L(a[11])}, {E(a[12])}, {L(a[13])}, {B(a[14])}⟩')
        if f == 'LeSetExtendedAdvertisingData':
            return f'.setExtAdvertisingData {L(a[0])} {E(a[1])} {self.data(a[3])}'
        if f == 'LeSetExtendedScanResponseData':
            return f'.setExtScanResponseData {L(a[0])} {E(a[1])} {self.data(a[3])}'
        if f == 'LeSetExtendedAdvertisingEnable':
            ps = ', '.join('⟨' + ', '.join(L(x) for x in c) + '⟩'
                           for c in self.calls(a[1], 'MakeEnabledSet'))
            return f'.setExtAdvertisingEnable 0 (fun _ => rpa) {B(a[0])} [{ps}]'
        if f == 'LeSetPeriodicAdvertisingParameters':
            return f'.setPeriodicParameters {L(a[0])} {L(a[1])} {L(a[2])}'
        if f == 'LeSetPeriodicAdvertisingData':
            return f'.setPeriodicData {L(a[0])} {E(a[1])} {self.data(a[2])}'
        if f == 'LeSetPeriodicAdvertisingEnable':
            b = ['true' if self.num(x) else 'false' for x in a[0:2]]
            return f'.setPeriodicEnable 0 {b[0]} {b[1]} {L(a[2])}'
        raise ValueError(f)

    def statement(self, s):
        m = re.fullmatch(r'properties_\.(\w+) = (\w+)', s)
        if m:
            self.props[PROPS[m.group(1)]] = int(m.group(2), 0)
            return
        m = re.fullmatch(r'std::vector<uint8_t> (\w+) = \{(.*)\}', s)
        if m:
            self.vars[m.group(1)] = [int(x, 0) for x in m.group(2).split(',') if x.strip()]
            return
        m = re.fullmatch(r'(\w+)\.resize\((.*)\)', s)
        if m:
            v = self.vars[m.group(1)]
            n = self.num(m.group(2))
            self.vars[m.group(1)] = (v + [0] * n)[:n]
            return
        m = re.fullmatch(r'controller_\.(\w+)\((.*)\)', s)
        if m:
            self.steps.append((dict(self.props), self.command(m.group(1), split(m.group(2))), None))
            return
        m = re.fullmatch(r'ASSERT_EQ\((.*)\)', s)
        call, want = split(m.group(1))
        m = re.fullmatch(r'controller_\.(\w+)\((.*)\)', call)
        self.steps.append((dict(self.props), self.command(m.group(1), split(m.group(2))),
                           self.enum(want)))


def body(text, start):
    depth, i = 0, text.index('{', start)
    first = i + 1
    while True:
        if text[i] == '{':
            depth += 1
        if text[i] == '}':
            depth -= 1
            if depth == 0:
                return text[first:i]
        i += 1


def statements(text):
    return [re.sub(r'\s+', ' ', s).replace('( ', '(') for s in split(text, ';')]


def config(props):
    return ('{ Config.default with publicAddress := 0' +
            ''.join(f', {k} := {v}' for k, v in sorted(props.items())) + ' }')


def main():
    out, count, cmds = [], 0, 0
    for path in sorted(glob.glob(SRC + '/*.cc')):
        name = os.path.basename(path)
        if name in SKIP:
            continue
        raw = open(path).read()
        text = re.sub(r'//[^\n]*', '', raw)
        props = {}
        for m in re.finditer(r'properties_\.(\w+) = (\w+);', text[:text.index('TEST_F')]):
            props[PROPS[m.group(1)]] = int(m.group(2), 0)
        out.append(f'/-! ### {name} -/\n')
        for m in re.finditer(r'TEST_F\((\w+),\s*(\w+)\)', text):
            t = Test(props)
            for s in statements(body(text, m.end())):
                t.statement(s)
            line = raw[:raw.index(m.group(0))].count('\n') + 1
            cfgs = []
            for c, _, _ in t.steps:
                if c not in cfgs:
                    cfgs.append(c)
            # The controller holds a reference to the properties: a test may change them midway.
            rows = []
            for c, cmd, want in t.steps:
                w = 'none' if want is None else f'some {want}'
                rows.append(f'    (cfg{cfgs.index(c)}, {cmd}, {w})')
            out.append(f'/-- {m.group(1)}.{m.group(2)} (test/controller/le/{name} {line}-). -/')
            lets = ''.join(f'  let cfg{i} : Config := {config(c)}\n' for i, c in enumerate(cfgs))
            out.append('example :\n' + lets + '  agrees (initial none) [\n' + ',\n'.join(rows) +
                       '] = true := by\n  decide +kernel\n')
            count += 1
            cmds += len(t.steps)
    head = f'''import Verif.Le.Step

/-!
# The project's unit tests of the LE commands, replayed on the model

Generated by `tools/gen_le_vectors.py` from `/repo/test/controller/le/*.cc`: {count} tests,
{cmds} commands. Each example runs the commands of one `TEST_F` on a fresh controller and
checks that the model gives every status the test asserts. These are tests of the model,
not claims about it: they show that the model answers as the code is tested to answer.

The tests that count advertising reports (`le_scanning_filter_duplicates_test.cc`) and the
one that generates a random address (`rpa_generation_test.cc`) are left out.
-/

namespace Verif.Le.Vectors

open Verif.Le

/-- A stand-in for the random generator of resolvable addresses. -/
def rpa (_ : Irk) : Address := 0x400000000001#48

/-- Run the commands, comparing each status with the expected one; `none` means that the
test ignores the status. The configuration is read again by every command. -/
def agrees : State → List (Config × Cmd × Option Status) → Bool
  | _, [] => true
  | s, (cfg, c, want) :: rest =>
    match runCmd cfg s c with
    | .ret s e => (want == none || want == some e) && agrees s rest
    | .ub => false

'''
    with open(OUT, 'w') as f:
        f.write(head + '\n'.join(out) + '\nend Verif.Le.Vectors\n')
    print(count, 'tests', cmds, 'commands')


main()
