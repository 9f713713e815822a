import Verif.Le.Step

/-!
# The project's unit tests of the LE commands, replayed on the model

Generated by `tools/gen_le_vectors.py` from `/repo/test/controller/le/*.cc`: 192 tests,
510 commands. Each example runs the commands of one `TEST_F` on a fresh controller and
checks that the model gives every status the test asserts. These are tests of the model,
not claims about it: they show that the model answers as the code is tested to answer.

The tests that count advertising reports (`le_scanning_filter_duplicates_test.cc`) and the
one that generates a random address (`rpa_generation_test.cc`) are left out.
-/

namespace Verif.Le.Vectors

open Verif.Le

/-- A stand-in for the random generator of resolvable addresses. -/
def rpa (_ : Irk) : Address := 0x400000000001#48

/-- Run the commands, comparing each status with the expected one; `none` means that the
test ignores the status. The configuration is read again by every command. -/
def agrees : State → List (Config × Cmd × Option Status) → Bool
  | _, [] => true
  | s, (cfg, c, want) :: rest =>
    match runCmd cfg s c with
    | .ret s e => (want == none || want == some e) && agrees s rest
    | .ub => false

/-! ### le_add_device_to_filter_accept_list_test.cc -/

/-- LeAddDeviceToFilterAcceptListTest.Success (test/controller/le/le_add_device_to_filter_accept_list_test.cc 41-). -/
example :
  let cfg0 : Config := { Config.default with publicAddress := 0, filterAcceptListSize := 2 }
  agrees (initial none) [
    (cfg0, .addFilterAccept .pub 1, some .success),
    (cfg0, .addFilterAccept .random 1, some .success)] = true := by
  decide +kernel

/-- LeAddDeviceToFilterAcceptListTest.ListFull (test/controller/le/le_add_device_to_filter_accept_list_test.cc 51-). -/
example :
  let cfg0 : Config := { Config.default with publicAddress := 0, filterAcceptListSize := 2 }
  agrees (initial none) [
    (cfg0, .addFilterAccept .pub 1, some .success),
    (cfg0, .addFilterAccept .pub 2, some .success),
    (cfg0, .addFilterAccept .pub 3, some .memoryCapacityExceeded)] = true := by
  decide +kernel

/-- LeAddDeviceToFilterAcceptListTest.ScanningActive (test/controller/le/le_add_device_to_filter_accept_list_test.cc 65-). -/
example :
  let cfg0 : Config := { Config.default with publicAddress := 0, filterAcceptListSize := 2 }
  agrees (initial none) [
    (cfg0, .setScanParameters .passive 0x400 0x200 .pub .filterAcceptListOnly, none),
    (cfg0, .setScanEnable true false, none),
    (cfg0, .addFilterAccept .pub 1, some .commandDisallowed)] = true := by
  decide +kernel

/-- LeAddDeviceToFilterAcceptListTest.LegacyAdvertisingActive (test/controller/le/le_add_device_to_filter_accept_list_test.cc 76-). -/
example :
  let cfg0 : Config := { Config.default with publicAddress := 0, filterAcceptListSize := 2 }
  agrees (initial none) [
    (cfg0, .setAdvertisingParameters ⟨0x800, 0x800, .advInd, .pub, .pub, 0, 7, .listedScan⟩, some .success),
    (cfg0, .setAdvertisingEnable 0 (fun _ => rpa) true, some .success),
    (cfg0, .addFilterAccept .pub 1, some .commandDisallowed)] = true := by
  decide +kernel

/-- LeAddDeviceToFilterAcceptListTest.ExtendedAdvertisingActive (test/controller/le/le_add_device_to_filter_accept_list_test.cc 89-). -/
example :
  let cfg0 : Config := { Config.default with publicAddress := 0, filterAcceptListSize := 2 }
  agrees (initial none) [
    (cfg0, .setExtAdvertisingParameters 0 ⟨⟨true, false, false, false, false, false, false⟩, 0x800, 0x800, 7, .pub, .pub, 0, .listedScan, 0x70, .le1m, 0, .le2m, 0, false⟩, some .success),
    (cfg0, .setExtAdvertisingEnable 0 (fun _ => rpa) true [⟨0, 0, 0⟩], some .success),
    (cfg0, .addFilterAccept .pub 1, some .commandDisallowed)] = true := by
  decide +kernel

/-! ### le_add_device_to_periodic_advertiser_list_test.cc -/

/-- LeAddDeviceToPeriodicAdvertiserListTest.Success (test/controller/le/le_add_device_to_periodic_advertiser_list_test.cc 41-). -/
example :
  let cfg0 : Config := { Config.default with publicAddress := 0, periodicAdvertiserListSize := 3 }
  agrees (initial none) [
    (cfg0, .addPeriodicAdvertiser ⟨.pub, 1, 1⟩, some .success),
    (cfg0, .addPeriodicAdvertiser ⟨.random, 1, 1⟩, some .success),
    (cfg0, .addPeriodicAdvertiser ⟨.random, 1, 2⟩, some .success)] = true := by
  decide +kernel

/-- LeAddDeviceToPeriodicAdvertiserListTest.ListFull (test/controller/le/le_add_device_to_periodic_advertiser_list_test.cc 55-). -/
example :
  let cfg0 : Config := { Config.default with publicAddress := 0, periodicAdvertiserListSize := 3 }
  agrees (initial none) [
    (cfg0, .addPeriodicAdvertiser ⟨.pub, 1, 1⟩, some .success),
    (cfg0, .addPeriodicAdvertiser ⟨.random, 1, 1⟩, some .success),
    (cfg0, .addPeriodicAdvertiser ⟨.random, 1, 2⟩, some .success),
    (cfg0, .addPeriodicAdvertiser ⟨.random, 1, 3⟩, some .memoryCapacityExceeded)] = true := by
  decide +kernel

/-- LeAddDeviceToPeriodicAdvertiserListTest.DuplicateEntry (test/controller/le/le_add_device_to_periodic_advertiser_list_test.cc 73-). -/
example :
  let cfg0 : Config := { Config.default with publicAddress := 0, periodicAdvertiserListSize := 3 }
  agrees (initial none) [
    (cfg0, .addPeriodicAdvertiser ⟨.pub, 1, 1⟩, some .success),
    (cfg0, .addPeriodicAdvertiser ⟨.pub, 1, 1⟩, some .invalidHciCommandParameters)] = true := by
  decide +kernel

/-- LeAddDeviceToPeriodicAdvertiserListTest.CreateSyncPending (test/controller/le/le_add_device_to_periodic_advertiser_list_test.cc 83-). -/
example :
  let cfg0 : Config := { Config.default with publicAddress := 0, periodicAdvertiserListSize := 3 }
  agrees (initial none) [
    (cfg0, .createSync ⟨false, false, false⟩ ⟨.pub, 5, 0⟩ 0x100 0, some .success),
    (cfg0, .addPeriodicAdvertiser ⟨.pub, 1, 1⟩, some .commandDisallowed)] = true := by
  decide +kernel

/-! ### le_add_device_to_resolving_list_test.cc -/

/-- LeAddDeviceToResolvingListTest.Success (test/controller/le/le_add_device_to_resolving_list_test.cc 41-). -/
example :
  let cfg0 : Config := { Config.default with publicAddress := 0, resolvingListSize := 2 }
  agrees (initial none) [
    (cfg0, .addResolving .pub 1 1 1, some .success),
    (cfg0, .addResolving .random 1 2 2, some .success)] = true := by
  decide +kernel

/-- LeAddDeviceToResolvingListTest.ListFull (test/controller/le/le_add_device_to_resolving_list_test.cc 53-). -/
example :
  let cfg0 : Config := { Config.default with publicAddress := 0, resolvingListSize := 2 }
  agrees (initial none) [
    (cfg0, .addResolving .pub 1 1 1, some .success),
    (cfg0, .addResolving .pub 2 2 2, some .success),
    (cfg0, .addResolving .pub 3 3 3, some .memoryCapacityExceeded)] = true := by
  decide +kernel

/-- LeAddDeviceToResolvingListTest.ScanningActive (test/controller/le/le_add_device_to_resolving_list_test.cc 70-). -/
example :
  let cfg0 : Config := { Config.default with publicAddress := 0, resolvingListSize := 2 }
  agrees (initial none) [
    (cfg0, .setAddressResolutionEnable true, some .success),
    (cfg0, .setScanEnable true false, none),
    (cfg0, .addResolving .pub 1 1 1, some .commandDisallowed)] = true := by
  decide +kernel

/-- LeAddDeviceToResolvingListTest.LegacyAdvertisingActive (test/controller/le/le_add_device_to_resolving_list_test.cc 80-). -/
example :
  let cfg0 : Config := { Config.default with publicAddress := 0, resolvingListSize := 2 }
  agrees (initial none) [
    (cfg0, .setAddressResolutionEnable true, some .success),
    (cfg0, .setAdvertisingEnable 0 (fun _ => rpa) true, some .success),
    (cfg0, .addResolving .pub 1 1 1, some .commandDisallowed)] = true := by
  decide +kernel

/-- LeAddDeviceToResolvingListTest.ExtendedAdvertisingActive (test/controller/le/le_add_device_to_resolving_list_test.cc 90-). -/
example :
  let cfg0 : Config := { Config.default with publicAddress := 0, resolvingListSize := 2 }
  agrees (initial none) [
    (cfg0, .setAddressResolutionEnable true, some .success),
    (cfg0, .setExtAdvertisingParameters 0 ⟨⟨true, false, false, false, false, false, false⟩, 0x800, 0x800, 7, .pub, .pub, 0, .listedScan, 0x70, .le1m, 0, .le2m, 0, false⟩, some .success),
    (cfg0, .setExtAdvertisingEnable 0 (fun _ => rpa) true [⟨0, 0, 0⟩], some .success),
    (cfg0, .addResolving .pub 1 1 1, some .commandDisallowed)] = true := by
  decide +kernel

/-- LeAddDeviceToResolvingListTest.PeerAddressDuplicate (test/controller/le/le_add_device_to_resolving_list_test.cc 108-). -/
example :
  let cfg0 : Config := { Config.default with publicAddress := 0, resolvingListSize := 2 }
  agrees (initial none) [
    (cfg0, .addResolving .pub 1 1 1, some .success),
    (cfg0, .addResolving .pub 1 2 2, some .invalidHciCommandParameters)] = true := by
  decide +kernel

/-- LeAddDeviceToResolvingListTest.PeerIrkDuplicate (test/controller/le/le_add_device_to_resolving_list_test.cc 120-). -/
example :
  let cfg0 : Config := { Config.default with publicAddress := 0, resolvingListSize := 2 }
  agrees (initial none) [
    (cfg0, .addResolving .pub 1 1 1, some .success),
    (cfg0, .addResolving .random 1 1 1, some .invalidHciCommandParameters)] = true := by
  decide +kernel

/-- LeAddDeviceToResolvingListTest.EmptyPeerIrkDuplicate (test/controller/le/le_add_device_to_resolving_list_test.cc 132-). -/
example :
  let cfg0 : Config := { Config.default with publicAddress := 0, resolvingListSize := 2 }
  agrees (initial none) [
    (cfg0, .addResolving .pub 1 0 1, some .success),
    (cfg0, .addResolving .random 1 0 1, some .success)] = true := by
  decide +kernel

/-! ### le_clear_filter_accept_list_test.cc -/

/-- LeClearFilterAcceptListTest.Success (test/controller/le/le_clear_filter_accept_list_test.cc 41-). -/
example :
  let cfg0 : Config := { Config.default with publicAddress := 0, filterAcceptListSize := 2 }
  agrees (initial none) [
    (cfg0, .addFilterAccept .pub 1, some .success),
    (cfg0, .clearFilterAccept, some .success)] = true := by
  decide +kernel

/-- LeClearFilterAcceptListTest.ScanningActive (test/controller/le/le_clear_filter_accept_list_test.cc 49-). -/
example :
  let cfg0 : Config := { Config.default with publicAddress := 0, filterAcceptListSize := 2 }
  agrees (initial none) [
    (cfg0, .addFilterAccept .pub 1, some .success),
    (cfg0, .setScanParameters .passive 0x400 0x200 .pub .filterAcceptListOnly, none),
    (cfg0, .setScanEnable true false, none),
    (cfg0, .clearFilterAccept, some .commandDisallowed)] = true := by
  decide +kernel

/-- LeClearFilterAcceptListTest.LegacyAdvertisingActive (test/controller/le/le_clear_filter_accept_list_test.cc 62-). -/
example :
  let cfg0 : Config := { Config.default with publicAddress := 0, filterAcceptListSize := 2 }
  agrees (initial none) [
    (cfg0, .addFilterAccept .pub 1, some .success),
    (cfg0, .setAdvertisingParameters ⟨0x800, 0x800, .advInd, .pub, .pub, 0, 7, .listedScan⟩, some .success),
    (cfg0, .setAdvertisingEnable 0 (fun _ => rpa) true, some .success),
    (cfg0, .clearFilterAccept, some .commandDisallowed)] = true := by
  decide +kernel

/-- LeClearFilterAcceptListTest.ExtendedAdvertisingActive (test/controller/le/le_clear_filter_accept_list_test.cc 77-). -/
example :
  let cfg0 : Config := { Config.default with publicAddress := 0, filterAcceptListSize := 2 }
  agrees (initial none) [
    (cfg0, .addFilterAccept .pub 1, some .success),
    (cfg0, .setExtAdvertisingParameters 0 ⟨⟨true, false, false, false, false, false, false⟩, 0x800, 0x800, 7, .pub, .pub, 0, .listedScan, 0x70, .le1m, 0, .le2m, 0, false⟩, some .success),
    (cfg0, .setExtAdvertisingEnable 0 (fun _ => rpa) true [⟨0, 0, 0⟩], some .success),
    (cfg0, .clearFilterAccept, some .commandDisallowed)] = true := by
  decide +kernel

/-! ### le_clear_periodic_advertiser_list_test.cc -/

/-- LeClearPeriodicAdvertiserListTest.Success (test/controller/le/le_clear_periodic_advertiser_list_test.cc 41-). -/
example :
  let cfg0 : Config := { Config.default with publicAddress := 0, periodicAdvertiserListSize := 1 }
  agrees (initial none) [
    (cfg0, .addPeriodicAdvertiser ⟨.pub, 1, 1⟩, some .success),
    (cfg0, .clearPeriodicAdvertiser, some .success),
    (cfg0, .addPeriodicAdvertiser ⟨.pub, 1, 1⟩, some .success)] = true := by
  decide +kernel

/-- LeClearPeriodicAdvertiserListTest.CreateSyncPending (test/controller/le/le_clear_periodic_advertiser_list_test.cc 53-). -/
example :
  let cfg0 : Config := { Config.default with publicAddress := 0, periodicAdvertiserListSize := 1 }
  agrees (initial none) [
    (cfg0, .createSync ⟨false, false, false⟩ ⟨.pub, 5, 0⟩ 0x100 0, some .success),
    (cfg0, .clearPeriodicAdvertiser, some .commandDisallowed)] = true := by
  decide +kernel

/-! ### le_clear_resolving_list_test.cc -/

/-- LeClearResolvingListTest.Success (test/controller/le/le_clear_resolving_list_test.cc 41-). -/
example :
  let cfg0 : Config := { Config.default with publicAddress := 0, resolvingListSize := 2 }
  agrees (initial none) [
    (cfg0, .addResolving .pub 1 1 1, some .success),
    (cfg0, .clearResolving, some .success)] = true := by
  decide +kernel

/-- LeClearResolvingListTest.ScanningActive (test/controller/le/le_clear_resolving_list_test.cc 50-). -/
example :
  let cfg0 : Config := { Config.default with publicAddress := 0, resolvingListSize := 2 }
  agrees (initial none) [
    (cfg0, .addResolving .pub 1 1 1, some .success),
    (cfg0, .setAddressResolutionEnable true, some .success),
    (cfg0, .setScanEnable true false, none),
    (cfg0, .clearResolving, some .commandDisallowed)] = true := by
  decide +kernel

/-- LeClearResolvingListTest.LegacyAdvertisingActive (test/controller/le/le_clear_resolving_list_test.cc 62-). -/
example :
  let cfg0 : Config := { Config.default with publicAddress := 0, resolvingListSize := 2 }
  agrees (initial none) [
    (cfg0, .addResolving .pub 1 1 1, some .success),
    (cfg0, .setAddressResolutionEnable true, some .success),
    (cfg0, .setAdvertisingEnable 0 (fun _ => rpa) true, some .success),
    (cfg0, .clearResolving, some .commandDisallowed)] = true := by
  decide +kernel

/-- LeClearResolvingListTest.ExtendedAdvertisingActive (test/controller/le/le_clear_resolving_list_test.cc 74-). -/
example :
  let cfg0 : Config := { Config.default with publicAddress := 0, resolvingListSize := 2 }
  agrees (initial none) [
    (cfg0, .addResolving .pub 1 1 1, some .success),
    (cfg0, .setAddressResolutionEnable true, some .success),
    (cfg0, .setExtAdvertisingParameters 0 ⟨⟨true, false, false, false, false, false, false⟩, 0x800, 0x800, 7, .pub, .pub, 0, .listedScan, 0x70, .le1m, 0, .le2m, 0, false⟩, some .success),
    (cfg0, .setExtAdvertisingEnable 0 (fun _ => rpa) true [⟨0, 0, 0⟩], some .success),
    (cfg0, .clearResolving, some .commandDisallowed)] = true := by
  decide +kernel

/-! ### le_create_connection_cancel_test.cc -/

/-- LeCreateConnectionCancelTest.CancelLegacyConnection (test/controller/le/le_create_connection_cancel_test.cc 37-). -/
example :
  let cfg0 : Config := { Config.default with publicAddress := 0 }
  agrees (initial none) [
    (cfg0, .createConnection rpa .usePeerAddress ⟨1, .publicDevice⟩ .pub ⟨0x200, 0x200, 0x100, 0x200, 0x10, 0xc80, 0, 0⟩, some .success),
    (cfg0, .createConnectionCancel, some .success)] = true := by
  decide +kernel

/-- LeCreateConnectionCancelTest.CancelExtendedConnection (test/controller/le/le_create_connection_cancel_test.cc 46-). -/
example :
  let cfg0 : Config := { Config.default with publicAddress := 0 }
  agrees (initial none) [
    (cfg0, .extendedCreateConnection rpa .usePeerAddress .pub ⟨1, .publicDevice⟩ 1 [⟨0x200, 0x200, 0x100, 0x200, 0x10, 0xc80, 0, 0⟩], some .success),
    (cfg0, .createConnectionCancel, some .success)] = true := by
  decide +kernel

/-- LeCreateConnectionCancelTest.NoPendingConnection (test/controller/le/le_create_connection_cancel_test.cc 56-). -/
example :
  let cfg0 : Config := { Config.default with publicAddress := 0 }
  agrees (initial none) [
    (cfg0, .createConnectionCancel, some .commandDisallowed)] = true := by
  decide +kernel

/-! ### le_create_connection_test.cc -/

/-- LeCreateConnectionTest.ConnectUsingPublicAddress (test/controller/le/le_create_connection_test.cc 36-). -/
example :
  let cfg0 : Config := { Config.default with publicAddress := 0 }
  agrees (initial none) [
    (cfg0, .createConnection rpa .usePeerAddress ⟨1, .publicDevice⟩ .pub ⟨0x200, 0x200, 0x100, 0x200, 0x10, 0xc80, 0, 0⟩, some .success)] = true := by
  decide +kernel

/-- LeCreateConnectionTest.ConnectUsingRandomAddress (test/controller/le/le_create_connection_test.cc 44-). -/
example :
  let cfg0 : Config := { Config.default with publicAddress := 0 }
  agrees (initial none) [
    (cfg0, .setRandomAddress 1, some .success),
    (cfg0, .createConnection rpa .usePeerAddress ⟨1, .publicDevice⟩ .random ⟨0x200, 0x200, 0x100, 0x200, 0x10, 0xc80, 0, 0⟩, some .success)] = true := by
  decide +kernel

/-- LeCreateConnectionTest.ConnectUsingResolvableAddress (test/controller/le/le_create_connection_test.cc 53-). -/
example :
  let cfg0 : Config := { Config.default with publicAddress := 0 }
  agrees (initial none) [
    (cfg0, .setRandomAddress 1, some .success),
    (cfg0, .createConnection rpa .usePeerAddress ⟨1, .publicDevice⟩ .resolvableOrRandom ⟨0x200, 0x200, 0x100, 0x200, 0x10, 0xc80, 0, 0⟩, some .success)] = true := by
  decide +kernel

/-- LeCreateConnectionTest.InitiatingActive (test/controller/le/le_create_connection_test.cc 63-). -/
example :
  let cfg0 : Config := { Config.default with publicAddress := 0 }
  agrees (initial none) [
    (cfg0, .createConnection rpa .usePeerAddress ⟨1, .publicDevice⟩ .pub ⟨0x200, 0x200, 0x100, 0x200, 0x10, 0xc80, 0, 0⟩, some .success),
    (cfg0, .createConnection rpa .usePeerAddress ⟨2, .publicDevice⟩ .pub ⟨0x200, 0x200, 0x100, 0x200, 0x10, 0xc80, 0, 0⟩, some .commandDisallowed)] = true := by
  decide +kernel

/-- LeCreateConnectionTest.InvalidScanInterval (test/controller/le/le_create_connection_test.cc 77-). -/
example :
  let cfg0 : Config := { Config.default with publicAddress := 0 }
  agrees (initial none) [
    (cfg0, .createConnection rpa .usePeerAddress ⟨1, .publicDevice⟩ .pub ⟨3, 0x200, 0x100, 0x200, 0x10, 0xc80, 0, 0⟩, some .unsupportedFeatureOrParameterValue),
    (cfg0, .createConnection rpa .usePeerAddress ⟨1, .publicDevice⟩ .pub ⟨0x4001, 0x200, 0x100, 0x200, 0x10, 0xc80, 0, 0⟩, some .unsupportedFeatureOrParameterValue)] = true := by
  decide +kernel

/-- LeCreateConnectionTest.InvalidScanWindow (test/controller/le/le_create_connection_test.cc 91-). -/
example :
  let cfg0 : Config := { Config.default with publicAddress := 0 }
  agrees (initial none) [
    (cfg0, .createConnection rpa .usePeerAddress ⟨1, .publicDevice⟩ .pub ⟨0x200, 3, 0x100, 0x200, 0x10, 0xc80, 0, 0⟩, some .unsupportedFeatureOrParameterValue),
    (cfg0, .createConnection rpa .usePeerAddress ⟨1, .publicDevice⟩ .pub ⟨0x200, 0x4001, 0x100, 0x200, 0x10, 0xc80, 0, 0⟩, some .unsupportedFeatureOrParameterValue),
    (cfg0, .createConnection rpa .usePeerAddress ⟨1, .publicDevice⟩ .pub ⟨0x100, 0x200, 0x100, 0x200, 0x10, 0xc80, 0, 0⟩, some .invalidHciCommandParameters)] = true := by
  decide +kernel

/-- LeCreateConnectionTest.InvalidConnectionInterval (test/controller/le/le_create_connection_test.cc 111-). -/
example :
  let cfg0 : Config := { Config.default with publicAddress := 0 }
  agrees (initial none) [
    (cfg0, .createConnection rpa .usePeerAddress ⟨1, .publicDevice⟩ .pub ⟨0x200, 0x200, 5, 0x200, 0x10, 0xc80, 0, 0⟩, some .unsupportedFeatureOrParameterValue),
    (cfg0, .createConnection rpa .usePeerAddress ⟨1, .publicDevice⟩ .pub ⟨0x200, 0x200, 0xc81, 0x200, 0x10, 0xc80, 0, 0⟩, some .unsupportedFeatureOrParameterValue),
    (cfg0, .createConnection rpa .usePeerAddress ⟨1, .publicDevice⟩ .pub ⟨0x200, 0x200, 0x200, 5, 0x10, 0xc80, 0, 0⟩, some .unsupportedFeatureOrParameterValue),
    (cfg0, .createConnection rpa .usePeerAddress ⟨1, .publicDevice⟩ .pub ⟨0x200, 0x200, 0x200, 0xc81, 0x10, 0xc80, 0, 0⟩, some .unsupportedFeatureOrParameterValue),
    (cfg0, .createConnection rpa .usePeerAddress ⟨1, .publicDevice⟩ .pub ⟨0x4001, 0x200, 0x200, 0x100, 0x10, 0xc80, 0, 0⟩, some .unsupportedFeatureOrParameterValue)] = true := by
  decide +kernel

/-- LeCreateConnectionTest.InvalidMaxLatency (test/controller/le/le_create_connection_test.cc 143-). -/
example :
  let cfg0 : Config := { Config.default with publicAddress := 0 }
  agrees (initial none) [
    (cfg0, .createConnection rpa .usePeerAddress ⟨1, .publicDevice⟩ .pub ⟨0x200, 0x200, 0x100, 0x200, 0x1f4, 0xc80, 0, 0⟩, some .unsupportedFeatureOrParameterValue)] = true := by
  decide +kernel

/-- LeCreateConnectionTest.InvalidSupervisionTimeout (test/controller/le/le_create_connection_test.cc 151-). -/
example :
  let cfg0 : Config := { Config.default with publicAddress := 0 }
  agrees (initial none) [
    (cfg0, .createConnection rpa .usePeerAddress ⟨1, .publicDevice⟩ .pub ⟨0x200, 0x200, 0x100, 0x200, 0x10, 9, 0, 0⟩, some .unsupportedFeatureOrParameterValue),
    (cfg0, .createConnection rpa .usePeerAddress ⟨1, .publicDevice⟩ .pub ⟨0x200, 0x200, 0x100, 0x200, 0x10, 0xc81, 0, 0⟩, some .unsupportedFeatureOrParameterValue),
    (cfg0, .createConnection rpa .usePeerAddress ⟨1, .publicDevice⟩ .pub ⟨0x200, 0x200, 0x100, 0x200, 0x1f3, 0xc80, 0, 0⟩, some .invalidHciCommandParameters)] = true := by
  decide +kernel

/-- LeCreateConnectionTest.NoRandomAddress (test/controller/le/le_create_connection_test.cc 171-). -/
example :
  let cfg0 : Config := { Config.default with publicAddress := 0 }
  agrees (initial none) [
    (cfg0, .createConnection rpa .usePeerAddress ⟨1, .publicDevice⟩ .random ⟨0x200, 0x200, 0x100, 0x200, 0x10, 0xc80, 0, 0⟩, some .invalidHciCommandParameters),
    (cfg0, .createConnection rpa .usePeerAddress ⟨1, .publicDevice⟩ .resolvableOrRandom ⟨0x200, 0x200, 0x100, 0x200, 0x10, 0xc80, 0, 0⟩, some .invalidHciCommandParameters)] = true := by
  decide +kernel

/-! ### le_extended_create_connection_test.cc -/

/-- LeExtendedCreateConnectionTest.ConnectUsingPublicAddress (test/controller/le/le_extended_create_connection_test.cc 39-). -/
example :
  let cfg0 : Config := { Config.default with publicAddress := 0 }
  agrees (initial none) [
    (cfg0, .extendedCreateConnection rpa .usePeerAddress .pub ⟨1, .publicDevice⟩ 1 [⟨0x200, 0x200, 0x100, 0x200, 0x10, 0xc80, 0, 0⟩], some .success)] = true := by
  decide +kernel

/-- LeExtendedCreateConnectionTest.ConnectUsingRandomAddress (test/controller/le/le_extended_create_connection_test.cc 48-). -/
example :
  let cfg0 : Config := { Config.default with publicAddress := 0 }
  agrees (initial none) [
    (cfg0, .setRandomAddress 1, some .success),
    (cfg0, .extendedCreateConnection rpa .usePeerAddress .random ⟨1, .publicDevice⟩ 1 [⟨0x200, 0x200, 0x100, 0x200, 0x10, 0xc80, 0, 0⟩], some .success)] = true := by
  decide +kernel

/-- LeExtendedCreateConnectionTest.ConnectUsingResolvableAddress (test/controller/le/le_extended_create_connection_test.cc 58-). -/
example :
  let cfg0 : Config := { Config.default with publicAddress := 0 }
  agrees (initial none) [
    (cfg0, .setRandomAddress 1, some .success),
    (cfg0, .extendedCreateConnection rpa .usePeerAddress .resolvableOrRandom ⟨1, .publicDevice⟩ 1 [⟨0x200, 0x200, 0x100, 0x200, 0x10, 0xc80, 0, 0⟩], some .success)] = true := by
  decide +kernel

/-- LeExtendedCreateConnectionTest.InitiatingActive (test/controller/le/le_extended_create_connection_test.cc 69-). -/
example :
  let cfg0 : Config := { Config.default with publicAddress := 0 }
  agrees (initial none) [
    (cfg0, .extendedCreateConnection rpa .usePeerAddress .pub ⟨1, .publicDevice⟩ 1 [⟨0x200, 0x200, 0x100, 0x200, 0x10, 0xc80, 0, 0⟩], some .success),
    (cfg0, .extendedCreateConnection rpa .usePeerAddress .pub ⟨1, .publicDevice⟩ 1 [⟨0x200, 0x200, 0x100, 0x200, 0x10, 0xc80, 0, 0⟩], some .commandDisallowed)] = true := by
  decide +kernel

/-- LeExtendedCreateConnectionTest.NoPhy (test/controller/le/le_extended_create_connection_test.cc 85-). -/
example :
  let cfg0 : Config := { Config.default with publicAddress := 0 }
  agrees (initial none) [
    (cfg0, .extendedCreateConnection rpa .usePeerAddress .pub ⟨1, .publicDevice⟩ 0 [], some .invalidHciCommandParameters)] = true := by
  decide +kernel

/-- LeExtendedCreateConnectionTest.ReservedPhy (test/controller/le/le_extended_create_connection_test.cc 92-). -/
example :
  let cfg0 : Config := { Config.default with publicAddress := 0 }
  agrees (initial none) [
    (cfg0, .extendedCreateConnection rpa .usePeerAddress .pub ⟨1, .publicDevice⟩ 8 [⟨0x200, 0x200, 0x100, 0x200, 0x10, 0xc80, 0, 0⟩], some .unsupportedFeatureOrParameterValue)] = true := by
  decide +kernel

/-- LeExtendedCreateConnectionTest.InvalidPhyParameters (test/controller/le/le_extended_create_connection_test.cc 101-). -/
example :
  let cfg0 : Config := { Config.default with publicAddress := 0 }
  agrees (initial none) [
    (cfg0, .extendedCreateConnection rpa .usePeerAddress .pub ⟨1, .publicDevice⟩ 1 [], some .invalidHciCommandParameters),
    (cfg0, .extendedCreateConnection rpa .usePeerAddress .pub ⟨1, .publicDevice⟩ 1 [⟨0x200, 0x200, 0x100, 0x200, 0x10, 0xc80, 0, 0⟩, ⟨0x200, 0x200, 0x100, 0x200, 0x10, 0xc80, 0, 0⟩], some .invalidHciCommandParameters)] = true := by
  decide +kernel

/-- LeExtendedCreateConnectionTest.InvalidScanInterval (test/controller/le/le_extended_create_connection_test.cc 117-). -/
example :
  let cfg0 : Config := { Config.default with publicAddress := 0 }
  agrees (initial none) [
    (cfg0, .extendedCreateConnection rpa .usePeerAddress .pub ⟨1, .publicDevice⟩ 1 [⟨3, 0x200, 0x100, 0x200, 0x10, 0xc80, 0, 0⟩], some .unsupportedFeatureOrParameterValue),
    (cfg0, .extendedCreateConnection rpa .usePeerAddress .pub ⟨1, .publicDevice⟩ 1 [⟨0x4001, 0x200, 0x100, 0x200, 0x10, 0xc80, 0, 0⟩], some .unsupportedFeatureOrParameterValue)] = true := by
  decide +kernel

/-- LeExtendedCreateConnectionTest.InvalidScanWindow (test/controller/le/le_extended_create_connection_test.cc 133-). -/
example :
  let cfg0 : Config := { Config.default with publicAddress := 0 }
  agrees (initial none) [
    (cfg0, .extendedCreateConnection rpa .usePeerAddress .pub ⟨1, .publicDevice⟩ 1 [⟨0x200, 3, 0x100, 0x200, 0x10, 0xc80, 0, 0⟩], some .unsupportedFeatureOrParameterValue),
    (cfg0, .extendedCreateConnection rpa .usePeerAddress .pub ⟨1, .publicDevice⟩ 1 [⟨0x200, 0x4001, 0x100, 0x200, 0x10, 0xc80, 0, 0⟩], some .unsupportedFeatureOrParameterValue),
    (cfg0, .extendedCreateConnection rpa .usePeerAddress .pub ⟨1, .publicDevice⟩ 1 [⟨0x100, 0x200, 0x100, 0x200, 0x10, 0xc80, 0, 0⟩], some .invalidHciCommandParameters)] = true := by
  decide +kernel

/-- LeExtendedCreateConnectionTest.InvalidConnectionInterval (test/controller/le/le_extended_create_connection_test.cc 156-). -/
example :
  let cfg0 : Config := { Config.default with publicAddress := 0 }
  agrees (initial none) [
    (cfg0, .extendedCreateConnection rpa .usePeerAddress .pub ⟨1, .publicDevice⟩ 1 [⟨0x200, 0x200, 5, 0x200, 0x10, 0xc80, 0, 0⟩], some .unsupportedFeatureOrParameterValue),
    (cfg0, .extendedCreateConnection rpa .usePeerAddress .pub ⟨1, .publicDevice⟩ 1 [⟨0x200, 0x200, 0xc81, 0x200, 0x10, 0xc80, 0, 0⟩], some .unsupportedFeatureOrParameterValue),
    (cfg0, .extendedCreateConnection rpa .usePeerAddress .pub ⟨1, .publicDevice⟩ 1 [⟨0x200, 0x200, 0x200, 5, 0x10, 0xc80, 0, 0⟩], some .unsupportedFeatureOrParameterValue),
    (cfg0, .extendedCreateConnection rpa .usePeerAddress .pub ⟨1, .publicDevice⟩ 1 [⟨0x200, 0x200, 0x200, 0xc81, 0x10, 0xc80, 0, 0⟩], some .unsupportedFeatureOrParameterValue),
    (cfg0, .extendedCreateConnection rpa .usePeerAddress .pub ⟨1, .publicDevice⟩ 1 [⟨0x200, 0x200, 0x200, 0x100, 0x10, 0xc80, 0, 0⟩], some .invalidHciCommandParameters)] = true := by
  decide +kernel

/-- LeExtendedCreateConnectionTest.InvalidMaxLatency (test/controller/le/le_extended_create_connection_test.cc 193-). -/
example :
  let cfg0 : Config := { Config.default with publicAddress := 0 }
  agrees (initial none) [
    (cfg0, .extendedCreateConnection rpa .usePeerAddress .pub ⟨1, .publicDevice⟩ 1 [⟨0x200, 0x200, 0x100, 0x200, 0x1f4, 0xc80, 0, 0⟩], some .unsupportedFeatureOrParameterValue)] = true := by
  decide +kernel

/-- LeExtendedCreateConnectionTest.InvalidSupervisionTimeout (test/controller/le/le_extended_create_connection_test.cc 202-). -/
example :
  let cfg0 : Config := { Config.default with publicAddress := 0 }
  agrees (initial none) [
    (cfg0, .extendedCreateConnection rpa .usePeerAddress .pub ⟨1, .publicDevice⟩ 1 [⟨0x200, 0x200, 0x100, 0x200, 0x10, 9, 0, 0⟩], some .unsupportedFeatureOrParameterValue),
    (cfg0, .extendedCreateConnection rpa .usePeerAddress .pub ⟨1, .publicDevice⟩ 1 [⟨0x200, 0x200, 0x100, 0x200, 0x10, 0xc81, 0, 0⟩], some .unsupportedFeatureOrParameterValue),
    (cfg0, .extendedCreateConnection rpa .usePeerAddress .pub ⟨1, .publicDevice⟩ 1 [⟨0x200, 0x200, 0x100, 0x200, 0x1f3, 0xc80, 0, 0⟩], some .invalidHciCommandParameters)] = true := by
  decide +kernel

/-- LeExtendedCreateConnectionTest.NoRandomAddress (test/controller/le/le_extended_create_connection_test.cc 225-). -/
example :
  let cfg0 : Config := { Config.default with publicAddress := 0 }
  agrees (initial none) [
    (cfg0, .extendedCreateConnection rpa .usePeerAddress .random ⟨1, .publicDevice⟩ 1 [⟨0x200, 0x200, 0x100, 0x200, 0x10, 0xc80, 0, 0⟩], some .invalidHciCommandParameters),
    (cfg0, .extendedCreateConnection rpa .usePeerAddress .resolvableOrRandom ⟨1, .publicDevice⟩ 1 [⟨0x200, 0x200, 0x100, 0x200, 0x10, 0xc80, 0, 0⟩], some .invalidHciCommandParameters)] = true := by
  decide +kernel

/-! ### le_periodic_advertising_create_sync_cancel_test.cc -/

/-- LePeriodicAdvertisingCreateSyncCancelTest.Success (test/controller/le/le_periodic_advertising_create_sync_cancel_test.cc 36-). -/
example :
  let cfg0 : Config := { Config.default with publicAddress := 0 }
  agrees (initial none) [
    (cfg0, .createSync ⟨false, false, false⟩ ⟨.pub, 1, 0⟩ 0x100 0, some .success),
    (cfg0, .createSyncCancel, some .success)] = true := by
  decide +kernel

/-- LePeriodicAdvertisingCreateSyncCancelTest.CreateSyncNotPending (test/controller/le/le_periodic_advertising_create_sync_cancel_test.cc 46-). -/
example :
  let cfg0 : Config := { Config.default with publicAddress := 0 }
  agrees (initial none) [
    (cfg0, .createSyncCancel, some .commandDisallowed)] = true := by
  decide +kernel

/-! ### le_periodic_advertising_create_sync_test.cc -/

/-- LePeriodicAdvertisingCreateSyncTest.CreateUsingPublicAddress (test/controller/le/le_periodic_advertising_create_sync_test.cc 36-). -/
example :
  let cfg0 : Config := { Config.default with publicAddress := 0 }
  agrees (initial none) [
    (cfg0, .createSync ⟨false, false, false⟩ ⟨.pub, 1, 0⟩ 0x100 0, some .success)] = true := by
  decide +kernel

/-- LePeriodicAdvertisingCreateSyncTest.CreateUsingPeriodicAdvertiserList (test/controller/le/le_periodic_advertising_create_sync_test.cc 44-). -/
example :
  let cfg0 : Config := { Config.default with publicAddress := 0 }
  agrees (initial none) [
    (cfg0, .createSync ⟨true, false, false⟩ ⟨.pub, 0, 0⟩ 0x100 0, some .success)] = true := by
  decide +kernel

/-- LePeriodicAdvertisingCreateSyncTest.CreateSyncPending (test/controller/le/le_periodic_advertising_create_sync_test.cc 52-). -/
example :
  let cfg0 : Config := { Config.default with publicAddress := 0 }
  agrees (initial none) [
    (cfg0, .createSync ⟨false, false, false⟩ ⟨.pub, 1, 0⟩ 0x100 0, some .success),
    (cfg0, .createSync ⟨true, false, false⟩ ⟨.pub, 0, 0⟩ 0x100 0, some .commandDisallowed)] = true := by
  decide +kernel

/-- LePeriodicAdvertisingCreateSyncTest.InvalidSyncCteMask (test/controller/le/le_periodic_advertising_create_sync_test.cc 66-). -/
example :
  let cfg0 : Config := { Config.default with publicAddress := 0 }
  agrees (initial none) [
    (cfg0, .createSync ⟨false, false, false⟩ ⟨.pub, 1, 0⟩ 0x100 0x1f, some .commandDisallowed)] = true := by
  decide +kernel

/-! ### le_remove_device_from_filter_accept_list_test.cc -/

/-- LeRemoveDeviceFromFilterAcceptListTest.Success (test/controller/le/le_remove_device_from_filter_accept_list_test.cc 41-). -/
example :
  let cfg0 : Config := { Config.default with publicAddress := 0, resolvingListSize := 2 }
  agrees (initial none) [
    (cfg0, .addFilterAccept .pub 1, some .success),
    (cfg0, .removeFilterAccept .pub 1, some .success)] = true := by
  decide +kernel

/-- LeRemoveDeviceFromFilterAcceptListTest.NotFound (test/controller/le/le_remove_device_from_filter_accept_list_test.cc 51-). -/
example :
  let cfg0 : Config := { Config.default with publicAddress := 0, resolvingListSize := 2 }
  agrees (initial none) [
    (cfg0, .addFilterAccept .pub 1, some .success),
    (cfg0, .removeFilterAccept .random 1, some .success)] = true := by
  decide +kernel

/-- LeRemoveDeviceFromFilterAcceptListTest.ScanningActive (test/controller/le/le_remove_device_from_filter_accept_list_test.cc 61-). -/
example :
  let cfg0 : Config := { Config.default with publicAddress := 0, resolvingListSize := 2 }
  agrees (initial none) [
    (cfg0, .addFilterAccept .pub 1, some .success),
    (cfg0, .setScanParameters .passive 0x400 0x200 .pub .filterAcceptListOnly, none),
    (cfg0, .setScanEnable true false, none),
    (cfg0, .removeFilterAccept .pub 1, some .commandDisallowed)] = true := by
  decide +kernel

/-- LeRemoveDeviceFromFilterAcceptListTest.LegacyAdvertisingActive (test/controller/le/le_remove_device_from_filter_accept_list_test.cc 76-). -/
example :
  let cfg0 : Config := { Config.default with publicAddress := 0, resolvingListSize := 2 }
  agrees (initial none) [
    (cfg0, .addFilterAccept .pub 1, some .success),
    (cfg0, .setAdvertisingParameters ⟨0x800, 0x800, .advInd, .pub, .pub, 0, 7, .listedScan⟩, some .success),
    (cfg0, .setAdvertisingEnable 0 (fun _ => rpa) true, some .success),
    (cfg0, .removeFilterAccept .pub 1, some .commandDisallowed)] = true := by
  decide +kernel

/-- LeRemoveDeviceFromFilterAcceptListTest.ExtendedAdvertisingActive (test/controller/le/le_remove_device_from_filter_accept_list_test.cc 93-). -/
example :
  let cfg0 : Config := { Config.default with publicAddress := 0, resolvingListSize := 2 }
  agrees (initial none) [
    (cfg0, .addFilterAccept .pub 1, some .success),
    (cfg0, .setExtAdvertisingParameters 0 ⟨⟨true, false, false, false, false, false, false⟩, 0x800, 0x800, 7, .pub, .pub, 0, .listedScan, 0x70, .le1m, 0, .le2m, 0, false⟩, some .success),
    (cfg0, .setExtAdvertisingEnable 0 (fun _ => rpa) true [⟨0, 0, 0⟩], some .success),
    (cfg0, .removeFilterAccept .pub 1, some .commandDisallowed)] = true := by
  decide +kernel

/-! ### le_remove_device_from_periodic_advertiser_list_test.cc -/

/-- LeRemoveDeviceFromPeriodicAdvertiserListTest.Success (test/controller/le/le_remove_device_from_periodic_advertiser_list_test.cc 41-). -/
example :
  let cfg0 : Config := { Config.default with publicAddress := 0, periodicAdvertiserListSize := 3 }
  agrees (initial none) [
    (cfg0, .addPeriodicAdvertiser ⟨.pub, 1, 1⟩, some .success),
    (cfg0, .removePeriodicAdvertiser ⟨.pub, 1, 1⟩, some .success)] = true := by
  decide +kernel

/-- LeRemoveDeviceFromPeriodicAdvertiserListTest.NotFound (test/controller/le/le_remove_device_from_periodic_advertiser_list_test.cc 51-). -/
example :
  let cfg0 : Config := { Config.default with publicAddress := 0, periodicAdvertiserListSize := 3 }
  agrees (initial none) [
    (cfg0, .addPeriodicAdvertiser ⟨.pub, 1, 1⟩, some .success),
    (cfg0, .removePeriodicAdvertiser ⟨.random, 1, 1⟩, some .unknownAdvertisingIdentifier)] = true := by
  decide +kernel

/-- LeRemoveDeviceFromPeriodicAdvertiserListTest.CreateSyncPending (test/controller/le/le_remove_device_from_periodic_advertiser_list_test.cc 61-). -/
example :
  let cfg0 : Config := { Config.default with publicAddress := 0, periodicAdvertiserListSize := 3 }
  agrees (initial none) [
    (cfg0, .addPeriodicAdvertiser ⟨.pub, 1, 1⟩, some .success),
    (cfg0, .createSync ⟨false, false, false⟩ ⟨.pub, 5, 0⟩ 0x100 0, some .success),
    (cfg0, .removePeriodicAdvertiser ⟨.pub, 1, 1⟩, some .commandDisallowed)] = true := by
  decide +kernel

/-! ### le_remove_device_from_resolving_list_test.cc -/

/-- LeRemoveDeviceFromResolvingListTest.Success (test/controller/le/le_remove_device_from_resolving_list_test.cc 41-). -/
example :
  let cfg0 : Config := { Config.default with publicAddress := 0, resolvingListSize := 2 }
  agrees (initial none) [
    (cfg0, .addResolving .pub 1 1 1, some .success),
    (cfg0, .removeResolving .pub 1, some .success)] = true := by
  decide +kernel

/-- LeRemoveDeviceFromResolvingListTest.NotFound (test/controller/le/le_remove_device_from_resolving_list_test.cc 52-). -/
example :
  let cfg0 : Config := { Config.default with publicAddress := 0, resolvingListSize := 2 }
  agrees (initial none) [
    (cfg0, .addResolving .pub 1 1 1, some .success),
    (cfg0, .removeResolving .random 1, some .unknownConnection)] = true := by
  decide +kernel

/-- LeRemoveDeviceFromResolvingListTest.ScanningActive (test/controller/le/le_remove_device_from_resolving_list_test.cc 63-). -/
example :
  let cfg0 : Config := { Config.default with publicAddress := 0, resolvingListSize := 2 }
  agrees (initial none) [
    (cfg0, .addResolving .pub 1 1 1, some .success),
    (cfg0, .setAddressResolutionEnable true, some .success),
    (cfg0, .setScanEnable true false, none),
    (cfg0, .removeResolving .pub 1, some .commandDisallowed)] = true := by
  decide +kernel

/-- LeRemoveDeviceFromResolvingListTest.LegacyAdvertisingActive (test/controller/le/le_remove_device_from_resolving_list_test.cc 77-). -/
example :
  let cfg0 : Config := { Config.default with publicAddress := 0, resolvingListSize := 2 }
  agrees (initial none) [
    (cfg0, .addResolving .pub 1 1 1, some .success),
    (cfg0, .setAddressResolutionEnable true, some .success),
    (cfg0, .setAdvertisingEnable 0 (fun _ => rpa) true, some .success),
    (cfg0, .removeResolving .pub 1, some .commandDisallowed)] = true := by
  decide +kernel

/-- LeRemoveDeviceFromResolvingListTest.ExtendedAdvertisingActive (test/controller/le/le_remove_device_from_resolving_list_test.cc 91-). -/
example :
  let cfg0 : Config := { Config.default with publicAddress := 0, resolvingListSize := 2 }
  agrees (initial none) [
    (cfg0, .addResolving .pub 1 1 1, some .success),
    (cfg0, .setAddressResolutionEnable true, some .success),
    (cfg0, .setExtAdvertisingParameters 0 ⟨⟨true, false, false, false, false, false, false⟩, 0x800, 0x800, 7, .pub, .pub, 0, .listedScan, 0x70, .le1m, 0, .le2m, 0, false⟩, some .success),
    (cfg0, .setExtAdvertisingEnable 0 (fun _ => rpa) true [⟨0, 0, 0⟩], some .success),
    (cfg0, .removeResolving .pub 1, some .commandDisallowed)] = true := by
  decide +kernel

/-! ### le_set_address_resolution_enable_test.cc -/

/-- LeSetAddressResolutionEnableTest.Success (test/controller/le/le_set_address_resolution_enable_test.cc 37-). -/
example :
  let cfg0 : Config := { Config.default with publicAddress := 0 }
  agrees (initial none) [
    (cfg0, .setAddressResolutionEnable true, some .success),
    (cfg0, .setAddressResolutionEnable false, some .success)] = true := by
  decide +kernel

/-- LeSetAddressResolutionEnableTest.ScanningActive (test/controller/le/le_set_address_resolution_enable_test.cc 42-). -/
example :
  let cfg0 : Config := { Config.default with publicAddress := 0 }
  agrees (initial none) [
    (cfg0, .setScanEnable true false, none),
    (cfg0, .setAddressResolutionEnable true, some .commandDisallowed),
    (cfg0, .setAddressResolutionEnable false, some .commandDisallowed)] = true := by
  decide +kernel

/-- LeSetAddressResolutionEnableTest.LegacyAdvertisingActive (test/controller/le/le_set_address_resolution_enable_test.cc 48-). -/
example :
  let cfg0 : Config := { Config.default with publicAddress := 0 }
  agrees (initial none) [
    (cfg0, .setAdvertisingEnable 0 (fun _ => rpa) true, some .success),
    (cfg0, .setAddressResolutionEnable true, some .commandDisallowed),
    (cfg0, .setAddressResolutionEnable false, some .commandDisallowed)] = true := by
  decide +kernel

/-- LeSetAddressResolutionEnableTest.ExtendedAdvertisingActive (test/controller/le/le_set_address_resolution_enable_test.cc 54-). -/
example :
  let cfg0 : Config := { Config.default with publicAddress := 0 }
  agrees (initial none) [
    (cfg0, .setExtAdvertisingParameters 0 ⟨⟨true, false, false, false, false, false, false⟩, 0x800, 0x800, 7, .pub, .pub, 0, .listedScan, 0x70, .le1m, 0, .le2m, 0, false⟩, some .success),
    (cfg0, .setExtAdvertisingEnable 0 (fun _ => rpa) true [⟨0, 0, 0⟩], some .success),
    (cfg0, .setAddressResolutionEnable true, some .commandDisallowed),
    (cfg0, .setAddressResolutionEnable false, some .commandDisallowed)] = true := by
  decide +kernel

/-! ### le_set_advertising_enable_test.cc -/

/-- LeSetAdvertisingEnableTest.EnableUsingPublicAddress (test/controller/le/le_set_advertising_enable_test.cc 36-). -/
example :
  let cfg0 : Config := { Config.default with publicAddress := 0 }
  agrees (initial none) [
    (cfg0, .setAdvertisingParameters ⟨0x800, 0x800, .advInd, .pub, .pub, 0, 7, .allDevices⟩, some .success),
    (cfg0, .setAdvertisingEnable 0 (fun _ => rpa) true, some .success)] = true := by
  decide +kernel

/-- LeSetAdvertisingEnableTest.EnableUsingRandomAddress (test/controller/le/le_set_advertising_enable_test.cc 45-). -/
example :
  let cfg0 : Config := { Config.default with publicAddress := 0 }
  agrees (initial none) [
    (cfg0, .setAdvertisingParameters ⟨0x800, 0x800, .advInd, .random, .pub, 0, 7, .allDevices⟩, some .success),
    (cfg0, .setRandomAddress 1, some .success),
    (cfg0, .setAdvertisingEnable 0 (fun _ => rpa) true, some .success)] = true := by
  decide +kernel

/-- LeSetAdvertisingEnableTest.EnableUsingResolvableAddress (test/controller/le/le_set_advertising_enable_test.cc 55-). -/
example :
  let cfg0 : Config := { Config.default with publicAddress := 0 }
  agrees (initial none) [
    (cfg0, .setAdvertisingParameters ⟨0x800, 0x800, .advInd, .resolvableOrRandom, .pub, 1, 7, .allDevices⟩, some .success),
    (cfg0, .addResolving .pub 1 1 1, some .success),
    (cfg0, .setAddressResolutionEnable true, some .success),
    (cfg0, .setAdvertisingEnable 0 (fun _ => rpa) true, some .success)] = true := by
  decide +kernel

/-- LeSetAdvertisingEnableTest.Disable (test/controller/le/le_set_advertising_enable_test.cc 73-). -/
example :
  let cfg0 : Config := { Config.default with publicAddress := 0 }
  agrees (initial none) [
    (cfg0, .setAdvertisingEnable 0 (fun _ => rpa) false, some .success)] = true := by
  decide +kernel

/-- LeSetAdvertisingEnableTest.NoRandomAddress (test/controller/le/le_set_advertising_enable_test.cc 77-). -/
example :
  let cfg0 : Config := { Config.default with publicAddress := 0 }
  agrees (initial none) [
    (cfg0, .setAdvertisingParameters ⟨0x800, 0x800, .advInd, .random, .pub, 0, 7, .allDevices⟩, some .success),
    (cfg0, .setAdvertisingEnable 0 (fun _ => rpa) true, some .invalidHciCommandParameters)] = true := by
  decide +kernel

/-- LeSetAdvertisingEnableTest.NoResolvableOrRandomAddress (test/controller/le/le_set_advertising_enable_test.cc 87-). -/
example :
  let cfg0 : Config := { Config.default with publicAddress := 0 }
  agrees (initial none) [
    (cfg0, .setAddressResolutionEnable true, some .success),
    (cfg0, .setAdvertisingParameters ⟨0x800, 0x800, .advInd, .resolvableOrRandom, .pub, 0, 7, .allDevices⟩, some .success),
    (cfg0, .setAdvertisingEnable 0 (fun _ => rpa) true, some .invalidHciCommandParameters)] = true := by
  decide +kernel

/-! ### le_set_advertising_parameters_test.cc -/

/-- LeSetAdvertisingParametersTest.Success (test/controller/le/le_set_advertising_parameters_test.cc 36-). -/
example :
  let cfg0 : Config := { Config.default with publicAddress := 0 }
  agrees (initial none) [
    (cfg0, .setAdvertisingParameters ⟨0x800, 0x800, .advInd, .pub, .pub, 0, 7, .allDevices⟩, some .success)] = true := by
  decide +kernel

/-- LeSetAdvertisingParametersTest.AdvertisingActive (test/controller/le/le_set_advertising_parameters_test.cc 44-). -/
example :
  let cfg0 : Config := { Config.default with publicAddress := 0 }
  agrees (initial none) [
    (cfg0, .setAdvertisingEnable 0 (fun _ => rpa) true, some .success),
    (cfg0, .setAdvertisingParameters ⟨0x800, 0x800, .advInd, .pub, .pub, 0, 7, .allDevices⟩, some .commandDisallowed)] = true := by
  decide +kernel

/-- LeSetAdvertisingParametersTest.InvalidChannelMap (test/controller/le/le_set_advertising_parameters_test.cc 54-). -/
example :
  let cfg0 : Config := { Config.default with publicAddress := 0 }
  agrees (initial none) [
    (cfg0, .setAdvertisingParameters ⟨0x800, 0x800, .advInd, .pub, .pub, 0, 0, .allDevices⟩, some .invalidHciCommandParameters)] = true := by
  decide +kernel

/-- LeSetAdvertisingParametersTest.InvalidAdvertisingInterval (test/controller/le/le_set_advertising_parameters_test.cc 62-). -/
example :
  let cfg0 : Config := { Config.default with publicAddress := 0 }
  agrees (initial none) [
    (cfg0, .setAdvertisingParameters ⟨0, 0x800, .advInd, .pub, .pub, 0, 7, .allDevices⟩, some .unsupportedFeatureOrParameterValue),
    (cfg0, .setAdvertisingParameters ⟨0x800, 0, .advInd, .pub, .pub, 0, 7, .allDevices⟩, some .unsupportedFeatureOrParameterValue),
    (cfg0, .setAdvertisingParameters ⟨0x4001, 0x800, .advInd, .pub, .pub, 0, 7, .allDevices⟩, some .unsupportedFeatureOrParameterValue),
    (cfg0, .setAdvertisingParameters ⟨0x800, 0x4001, .advInd, .pub, .pub, 0, 7, .allDevices⟩, some .unsupportedFeatureOrParameterValue),
    (cfg0, .setAdvertisingParameters ⟨0x900, 0x800, .advInd, .pub, .pub, 0, 7, .allDevices⟩, some .invalidHciCommandParameters)] = true := by
  decide +kernel

/-! ### le_set_extended_advertising_data_test.cc -/

/-- LeSetExtendedAdvertisingDataTest.Complete (test/controller/le/le_set_extended_advertising_data_test.cc 41-). -/
example :
  let cfg0 : Config := { Config.default with publicAddress := 0, maxAdvertisingDataLength := 300, numSupportedAdvertisingSets := 2 }
  agrees (initial none) [
    (cfg0, .setExtAdvertisingParameters 0 ⟨⟨true, false, false, false, false, false, false⟩, 0x800, 0x800, 7, .pub, .pub, 0, .allDevices, 0x70, .le1m, 0, .le2m, 0, false⟩, some .success),
    (cfg0, .setExtAdvertisingData 0 .completeAdvertisement [1, 2, 3], some .success)] = true := by
  decide +kernel

/-- LeSetExtendedAdvertisingDataTest.Unchanged (test/controller/le/le_set_extended_advertising_data_test.cc 57-). -/
example :
  let cfg0 : Config := { Config.default with publicAddress := 0, maxAdvertisingDataLength := 300, numSupportedAdvertisingSets := 2 }
  agrees (initial none) [
    (cfg0, .setExtAdvertisingParameters 0 ⟨⟨true, false, false, false, false, false, false⟩, 0x800, 0x800, 7, .pub, .pub, 0, .allDevices, 0x70, .le1m, 0, .le2m, 0, false⟩, some .success),
    (cfg0, .setExtAdvertisingData 0 .completeAdvertisement [1, 2, 3], some .success),
    (cfg0, .setExtAdvertisingEnable 0 (fun _ => rpa) true [⟨0, 0, 0⟩], some .success),
    (cfg0, .setExtAdvertisingData 0 .unchangedData [], some .success)] = true := by
  decide +kernel

/-- LeSetExtendedAdvertisingDataTest.Fragmented (test/controller/le/le_set_extended_advertising_data_test.cc 80-). -/
example :
  let cfg0 : Config := { Config.default with publicAddress := 0, maxAdvertisingDataLength := 300, numSupportedAdvertisingSets := 2 }
  agrees (initial none) [
    (cfg0, .setExtAdvertisingParameters 0 ⟨⟨true, false, false, false, false, false, false⟩, 0x800, 0x800, 7, .pub, .pub, 0, .allDevices, 0x70, .le1m, 0, .le2m, 0, false⟩, some .success),
    (cfg0, .setExtAdvertisingData 0 .firstFragment [1, 2, 3], some .success),
    (cfg0, .setExtAdvertisingData 0 .intermediateFragment [4, 5, 6], some .success),
    (cfg0, .setExtAdvertisingData 0 .lastFragment [7, 8, 9], some .success)] = true := by
  decide +kernel

/-- LeSetExtendedAdvertisingDataTest.UnknownAdvertisingHandle (test/controller/le/le_set_extended_advertising_data_test.cc 109-). -/
example :
  let cfg0 : Config := { Config.default with publicAddress := 0, maxAdvertisingDataLength := 300, numSupportedAdvertisingSets := 2 }
  agrees (initial none) [
    (cfg0, .setExtAdvertisingParameters 0 ⟨⟨true, false, false, false, false, false, false⟩, 0x800, 0x800, 7, .pub, .pub, 0, .allDevices, 0x70, .le1m, 0, .le2m, 0, false⟩, some .success),
    (cfg0, .setExtAdvertisingData 1 .completeAdvertisement [1, 2, 3], some .unknownAdvertisingIdentifier)] = true := by
  decide +kernel

/-- LeSetExtendedAdvertisingDataTest.UnexpectedAdvertisingData (test/controller/le/le_set_extended_advertising_data_test.cc 125-). -/
example :
  let cfg0 : Config := { Config.default with publicAddress := 0, maxAdvertisingDataLength := 300, numSupportedAdvertisingSets := 2 }
  agrees (initial none) [
    (cfg0, .setExtAdvertisingParameters 0 ⟨⟨false, true, false, false, false, false, false⟩, 0x800, 0x800, 7, .pub, .pub, 0, .allDevices, 0x70, .le1m, 0, .le2m, 0, false⟩, some .success),
    (cfg0, .setExtAdvertisingData 0 .completeAdvertisement [1, 2, 3], some .invalidHciCommandParameters)] = true := by
  decide +kernel

/-- LeSetExtendedAdvertisingDataTest.IncompleteLegacyAdvertisingData (test/controller/le/le_set_extended_advertising_data_test.cc 141-). -/
example :
  let cfg0 : Config := { Config.default with publicAddress := 0, maxAdvertisingDataLength := 300, numSupportedAdvertisingSets := 2 }
  agrees (initial none) [
    (cfg0, .setExtAdvertisingParameters 0 ⟨⟨false, true, false, false, true, false, false⟩, 0x800, 0x800, 7, .pub, .pub, 0, .allDevices, 0x70, .le1m, 0, .le2m, 0, false⟩, some .success),
    (cfg0, .setExtAdvertisingData 0 .firstFragment [1, 2, 3], some .invalidHciCommandParameters)] = true := by
  decide +kernel

/-- LeSetExtendedAdvertisingDataTest.InvalidLegacyAdvertisingData (test/controller/le/le_set_extended_advertising_data_test.cc 157-). -/
example :
  let cfg0 : Config := { Config.default with publicAddress := 0, maxAdvertisingDataLength := 300, numSupportedAdvertisingSets := 2 }
  agrees (initial none) [
    (cfg0, .setExtAdvertisingParameters 0 ⟨⟨false, true, false, false, true, false, false⟩, 0x800, 0x800, 7, .pub, .pub, 0, .allDevices, 0x70, .le1m, 0, .le2m, 0, false⟩, some .success),
    (cfg0, .setExtAdvertisingData 0 .completeAdvertisement ([1, 2, 3] ++ List.replicate 29 0), some .invalidHciCommandParameters)] = true := by
  decide +kernel

/-- LeSetExtendedAdvertisingDataTest.UnchangedWhenDisabled (test/controller/le/le_set_extended_advertising_data_test.cc 174-). -/
example :
  let cfg0 : Config := { Config.default with publicAddress := 0, maxAdvertisingDataLength := 300, numSupportedAdvertisingSets := 2 }
  agrees (initial none) [
    (cfg0, .setExtAdvertisingParameters 0 ⟨⟨true, false, false, false, false, false, false⟩, 0x800, 0x800, 7, .pub, .pub, 0, .allDevices, 0x70, .le1m, 0, .le2m, 0, false⟩, some .success),
    (cfg0, .setExtAdvertisingData 0 .completeAdvertisement [1, 2, 3], some .success),
    (cfg0, .setExtAdvertisingData 0 .unchangedData [1, 2, 3], some .invalidHciCommandParameters)] = true := by
  decide +kernel

/-- LeSetExtendedAdvertisingDataTest.UnchangedWhenAdvertisingDataEmpty (test/controller/le/le_set_extended_advertising_data_test.cc 195-). -/
example :
  let cfg0 : Config := { Config.default with publicAddress := 0, maxAdvertisingDataLength := 300, numSupportedAdvertisingSets := 2 }
  agrees (initial none) [
    (cfg0, .setExtAdvertisingParameters 0 ⟨⟨true, false, false, false, false, false, false⟩, 0x800, 0x800, 7, .pub, .pub, 0, .allDevices, 0x70, .le1m, 0, .le2m, 0, false⟩, some .success),
    (cfg0, .setExtAdvertisingEnable 0 (fun _ => rpa) true [⟨0, 0, 0⟩], some .success),
    (cfg0, .setExtAdvertisingData 0 .unchangedData [], some .invalidHciCommandParameters)] = true := by
  decide +kernel

/-- LeSetExtendedAdvertisingDataTest.UnchangedWhenUsingLegacyAdvertising (test/controller/le/le_set_extended_advertising_data_test.cc 212-). -/
example :
  let cfg0 : Config := { Config.default with publicAddress := 0, maxAdvertisingDataLength := 300, numSupportedAdvertisingSets := 2 }
  agrees (initial none) [
    (cfg0, .setExtAdvertisingParameters 0 ⟨⟨false, true, false, false, true, false, false⟩, 0x800, 0x800, 7, .pub, .pub, 0, .allDevices, 0x70, .le1m, 0, .le2m, 0, false⟩, some .success),
    (cfg0, .setExtAdvertisingEnable 0 (fun _ => rpa) true [⟨0, 0, 0⟩], some .success),
    (cfg0, .setExtAdvertisingData 0 .unchangedData [], some .invalidHciCommandParameters)] = true := by
  decide +kernel

/-- LeSetExtendedAdvertisingDataTest.EmptyAdvertisingDataFragment (test/controller/le/le_set_extended_advertising_data_test.cc 229-). -/
example :
  let cfg0 : Config := { Config.default with publicAddress := 0, maxAdvertisingDataLength := 300, numSupportedAdvertisingSets := 2 }
  agrees (initial none) [
    (cfg0, .setExtAdvertisingParameters 0 ⟨⟨true, false, false, false, false, false, false⟩, 0x800, 0x800, 7, .pub, .pub, 0, .allDevices, 0x70, .le1m, 0, .le2m, 0, false⟩, some .success),
    (cfg0, .setExtAdvertisingData 0 .firstFragment [], some .invalidHciCommandParameters),
    (cfg0, .setExtAdvertisingData 0 .firstFragment [1, 2, 3], some .success),
    (cfg0, .setExtAdvertisingData 0 .intermediateFragment [], some .invalidHciCommandParameters),
    (cfg0, .setExtAdvertisingData 0 .intermediateFragment [4, 5, 6], some .success),
    (cfg0, .setExtAdvertisingData 0 .lastFragment [], some .invalidHciCommandParameters),
    (cfg0, .setExtAdvertisingData 0 .lastFragment [7, 8, 9], some .success)] = true := by
  decide +kernel

/-- LeSetExtendedAdvertisingDataTest.AdvertisingEnabled (test/controller/le/le_set_extended_advertising_data_test.cc 271-). -/
example :
  let cfg0 : Config := { Config.default with publicAddress := 0, maxAdvertisingDataLength := 300, numSupportedAdvertisingSets := 2 }
  agrees (initial none) [
    (cfg0, .setExtAdvertisingParameters 0 ⟨⟨true, false, false, false, false, false, false⟩, 0x800, 0x800, 7, .pub, .pub, 0, .allDevices, 0x70, .le1m, 0, .le2m, 0, false⟩, some .success),
    (cfg0, .setExtAdvertisingEnable 0 (fun _ => rpa) true [⟨0, 0, 0⟩], some .success),
    (cfg0, .setExtAdvertisingData 0 .firstFragment [1, 2, 3], some .commandDisallowed)] = true := by
  decide +kernel

/-- LeSetExtendedAdvertisingDataTest.AdvertisingDataLargerThanMemoryCapacity (test/controller/le/le_set_extended_advertising_data_test.cc 290-). -/
example :
  let cfg0 : Config := { Config.default with publicAddress := 0, maxAdvertisingDataLength := 300, numSupportedAdvertisingSets := 2 }
  agrees (initial none) [
    (cfg0, .setExtAdvertisingParameters 0 ⟨⟨true, false, false, false, false, false, false⟩, 0x800, 0x800, 7, .pub, .pub, 0, .allDevices, 0x70, .le1m, 0, .le2m, 0, false⟩, some .success),
    (cfg0, .setExtAdvertisingData 0 .firstFragment ([1, 2, 3] ++ List.replicate 297 0), some .success),
    (cfg0, .setExtAdvertisingData 0 .lastFragment ([1, 2, 3] ++ List.replicate 297 0), some .memoryCapacityExceeded)] = true := by
  decide +kernel

/-- LeSetExtendedAdvertisingDataTest.AdvertisingDataLargerThanPduCapacity (test/controller/le/le_set_extended_advertising_data_test.cc 312-). -/
example :
  let cfg0 : Config := { Config.default with publicAddress := 0, maxAdvertisingDataLength := 300, numSupportedAdvertisingSets := 2 }
  agrees (initial none) [
    (cfg0, .setExtAdvertisingParameters 0 ⟨⟨true, false, false, false, false, false, false⟩, 0x800, 0x800, 7, .pub, .pub, 0, .allDevices, 0x70, .le1m, 0, .le2m, 0, false⟩, some .success),
    (cfg0, .setExtAdvertisingEnable 0 (fun _ => rpa) true [⟨0, 0, 0⟩], some .success),
    (cfg0, .setExtAdvertisingData 0 .completeAdvertisement ([1, 2, 3] ++ List.replicate 251 0), some .packetTooLong)] = true := by
  decide +kernel

/-! ### le_set_extended_advertising_enable_test.cc -/

/-- LeSetExtendedAdvertisingEnableTest.DisableAll (test/controller/le/le_set_extended_advertising_enable_test.cc 41-). -/
example :
  let cfg0 : Config := { Config.default with publicAddress := 0, maxAdvertisingDataLength := 2000, numSupportedAdvertisingSets := 2 }
  agrees (initial none) [
    (cfg0, .setExtAdvertisingEnable 0 (fun _ => rpa) false [], some .success)] = true := by
  decide +kernel

/-- LeSetExtendedAdvertisingEnableTest.DisableSelected (test/controller/le/le_set_extended_advertising_enable_test.cc 45-). -/
example :
  let cfg0 : Config := { Config.default with publicAddress := 0, maxAdvertisingDataLength := 2000, numSupportedAdvertisingSets := 2 }
  agrees (initial none) [
    (cfg0, .setExtAdvertisingParameters 0 ⟨⟨true, false, false, false, false, false, false⟩, 0x800, 0x800, 7, .pub, .pub, 0, .allDevices, 0x70, .le1m, 0, .le2m, 0, false⟩, some .success),
    (cfg0, .setExtAdvertisingEnable 0 (fun _ => rpa) false [⟨0, 0, 0⟩], some .success)] = true := by
  decide +kernel

/-- LeSetExtendedAdvertisingEnableTest.EnableUsingPublicAddress (test/controller/le/le_set_extended_advertising_enable_test.cc 58-). -/
example :
  let cfg0 : Config := { Config.default with publicAddress := 0, maxAdvertisingDataLength := 2000, numSupportedAdvertisingSets := 2 }
  agrees (initial none) [
    (cfg0, .setExtAdvertisingParameters 0 ⟨⟨true, true, false, false, true, false, false⟩, 0x800, 0x800, 7, .pub, .pub, 0, .allDevices, 0x70, .le1m, 0, .le2m, 0, false⟩, some .success),
    (cfg0, .setExtAdvertisingEnable 0 (fun _ => rpa) true [⟨0, 0, 0⟩], some .success)] = true := by
  decide +kernel

/-- LeSetExtendedAdvertisingEnableTest.EnableUsingTimeout (test/controller/le/le_set_extended_advertising_enable_test.cc 71-). -/
example :
  let cfg0 : Config := { Config.default with publicAddress := 0, maxAdvertisingDataLength := 2000, numSupportedAdvertisingSets := 2 }
  agrees (initial none) [
    (cfg0, .setExtAdvertisingParameters 0 ⟨⟨true, true, false, false, true, false, false⟩, 0x800, 0x800, 7, .pub, .pub, 0, .allDevices, 0x70, .le1m, 0, .le2m, 0, false⟩, some .success),
    (cfg0, .setExtAdvertisingEnable 0 (fun _ => rpa) true [⟨0, 0x40, 0⟩], some .success)] = true := by
  decide +kernel

/-- LeSetExtendedAdvertisingEnableTest.EnableUsingRandomAddress (test/controller/le/le_set_extended_advertising_enable_test.cc 84-). -/
example :
  let cfg0 : Config := { Config.default with publicAddress := 0, maxAdvertisingDataLength := 2000, numSupportedAdvertisingSets := 2 }
  agrees (initial none) [
    (cfg0, .setExtAdvertisingParameters 0 ⟨⟨true, true, false, false, true, false, false⟩, 0x800, 0x800, 7, .random, .pub, 0, .allDevices, 0x70, .le1m, 0, .le2m, 0, false⟩, some .success),
    (cfg0, .setAdvertisingSetRandomAddress 0 1, some .success),
    (cfg0, .setExtAdvertisingEnable 0 (fun _ => rpa) true [⟨0, 0x40, 0⟩], some .success)] = true := by
  decide +kernel

/-- LeSetExtendedAdvertisingEnableTest.EnableUsingResolvableAddress (test/controller/le/le_set_extended_advertising_enable_test.cc 99-). -/
example :
  let cfg0 : Config := { Config.default with publicAddress := 0, maxAdvertisingDataLength := 2000, numSupportedAdvertisingSets := 2 }
  agrees (initial none) [
    (cfg0, .setExtAdvertisingParameters 0 ⟨⟨true, true, false, false, true, false, false⟩, 0x800, 0x800, 7, .resolvableOrRandom, .pub, 1, .allDevices, 0x70, .le1m, 0, .le2m, 0, false⟩, some .success),
    (cfg0, .addResolving .pub 1 1 1, some .success),
    (cfg0, .setAddressResolutionEnable true, some .success),
    (cfg0, .setExtAdvertisingEnable 0 (fun _ => rpa) true [⟨0, 0x40, 0⟩], some .success)] = true := by
  decide +kernel

/-- LeSetExtendedAdvertisingEnableTest.DuplicateAdvertisingHandle (test/controller/le/le_set_extended_advertising_enable_test.cc 119-). -/
example :
  let cfg0 : Config := { Config.default with publicAddress := 0, maxAdvertisingDataLength := 2000, numSupportedAdvertisingSets := 2 }
  agrees (initial none) [
    (cfg0, .setExtAdvertisingParameters 0 ⟨⟨true, true, false, false, true, false, false⟩, 0x800, 0x800, 7, .pub, .pub, 0, .allDevices, 0x70, .le1m, 0, .le2m, 0, false⟩, some .success),
    (cfg0, .setExtAdvertisingEnable 0 (fun _ => rpa) true [⟨0, 0, 0⟩, ⟨0, 0, 0⟩], some .invalidHciCommandParameters)] = true := by
  decide +kernel

/-- LeSetExtendedAdvertisingEnableTest.UnknownAdvertisingHandle (test/controller/le/le_set_extended_advertising_enable_test.cc 133-). -/
example :
  let cfg0 : Config := { Config.default with publicAddress := 0, maxAdvertisingDataLength := 2000, numSupportedAdvertisingSets := 2 }
  agrees (initial none) [
    (cfg0, .setExtAdvertisingParameters 0 ⟨⟨true, true, false, false, true, false, false⟩, 0x800, 0x800, 7, .pub, .pub, 0, .allDevices, 0x70, .le1m, 0, .le2m, 0, false⟩, some .success),
    (cfg0, .setExtAdvertisingEnable 0 (fun _ => rpa) true [⟨0, 0, 0⟩, ⟨1, 0, 0⟩], some .unknownAdvertisingIdentifier)] = true := by
  decide +kernel

/-- LeSetExtendedAdvertisingEnableTest.MissingAdvertisingHandle (test/controller/le/le_set_extended_advertising_enable_test.cc 147-). -/
example :
  let cfg0 : Config := { Config.default with publicAddress := 0, maxAdvertisingDataLength := 2000, numSupportedAdvertisingSets := 2 }
  agrees (initial none) [
    (cfg0, .setExtAdvertisingEnable 0 (fun _ => rpa) true [], some .invalidHciCommandParameters)] = true := by
  decide +kernel

/-- LeSetExtendedAdvertisingEnableTest.InvalidDuration (test/controller/le/le_set_extended_advertising_enable_test.cc 152-). -/
example :
  let cfg0 : Config := { Config.default with publicAddress := 0, maxAdvertisingDataLength := 2000, numSupportedAdvertisingSets := 2 }
  agrees (initial none) [
    (cfg0, .setExtAdvertisingParameters 0 ⟨⟨true, false, true, true, true, false, false⟩, 0x800, 0x800, 7, .pub, .pub, 0, .allDevices, 0x70, .le1m, 0, .le2m, 0, false⟩, some .success),
    (cfg0, .setExtAdvertisingEnable 0 (fun _ => rpa) true [⟨0, 0, 0⟩], some .invalidHciCommandParameters),
    (cfg0, .setExtAdvertisingEnable 0 (fun _ => rpa) true [⟨0, 0x801, 0⟩], some .invalidHciCommandParameters)] = true := by
  decide +kernel

/-- LeSetExtendedAdvertisingEnableTest.PartialAdvertisingData (test/controller/le/le_set_extended_advertising_enable_test.cc 170-). -/
example :
  let cfg0 : Config := { Config.default with publicAddress := 0, maxAdvertisingDataLength := 2000, numSupportedAdvertisingSets := 2 }
  agrees (initial none) [
    (cfg0, .setExtAdvertisingParameters 0 ⟨⟨true, false, false, false, false, false, false⟩, 0x800, 0x800, 7, .pub, .pub, 0, .allDevices, 0x70, .le1m, 0, .le2m, 0, false⟩, some .success),
    (cfg0, .setExtAdvertisingData 0 .firstFragment [1, 2, 3], some .success),
    (cfg0, .setExtAdvertisingEnable 0 (fun _ => rpa) true [⟨0, 0, 0⟩], some .commandDisallowed)] = true := by
  decide +kernel

/-- LeSetExtendedAdvertisingEnableTest.PartialScanResponseData (test/controller/le/le_set_extended_advertising_enable_test.cc 189-). -/
example :
  let cfg0 : Config := { Config.default with publicAddress := 0, maxAdvertisingDataLength := 2000, numSupportedAdvertisingSets := 2 }
  agrees (initial none) [
    (cfg0, .setExtAdvertisingParameters 0 ⟨⟨false, true, false, false, false, false, false⟩, 0x800, 0x800, 7, .pub, .pub, 0, .allDevices, 0x70, .le1m, 0, .le2m, 0, false⟩, some .success),
    (cfg0, .setExtScanResponseData 0 .firstFragment [1, 2, 3], some .success),
    (cfg0, .setExtAdvertisingEnable 0 (fun _ => rpa) true [⟨0, 0, 0⟩], some .commandDisallowed)] = true := by
  decide +kernel

/-- LeSetExtendedAdvertisingEnableTest.EmptyScanResponseData (test/controller/le/le_set_extended_advertising_enable_test.cc 208-). -/
example :
  let cfg0 : Config := { Config.default with publicAddress := 0, maxAdvertisingDataLength := 2000, numSupportedAdvertisingSets := 2 }
  agrees (initial none) [
    (cfg0, .setExtAdvertisingParameters 0 ⟨⟨false, true, false, false, false, false, false⟩, 0x800, 0x800, 7, .pub, .pub, 0, .allDevices, 0x70, .le1m, 0, .le2m, 0, false⟩, some .success),
    (cfg0, .setExtAdvertisingEnable 0 (fun _ => rpa) true [⟨0, 0, 0⟩], some .commandDisallowed)] = true := by
  decide +kernel

/-- LeSetExtendedAdvertisingEnableTest.AdvertisingDataLargerThanPduCapacity (test/controller/le/le_set_extended_advertising_enable_test.cc 221-). -/
example :
  let cfg0 : Config := { Config.default with publicAddress := 0, maxAdvertisingDataLength := 2000, numSupportedAdvertisingSets := 2 }
  agrees (initial none) [
    (cfg0, .setExtAdvertisingParameters 0 ⟨⟨true, false, false, false, false, false, false⟩, 0x800, 0x800, 7, .pub, .pub, 0, .allDevices, 0x70, .le1m, 0, .le2m, 0, false⟩, some .success),
    (cfg0, .setExtAdvertisingData 0 .completeAdvertisement ([1, 2, 3] ++ List.replicate 251 0), some .success),
    (cfg0, .setExtAdvertisingEnable 0 (fun _ => rpa) true [⟨0, 0, 0⟩], some .invalidHciCommandParameters)] = true := by
  decide +kernel

/-- LeSetExtendedAdvertisingEnableTest.AdvertisingDataLargerThanMaxPduCapacity (test/controller/le/le_set_extended_advertising_enable_test.cc 241-). -/
example :
  let cfg0 : Config := { Config.default with publicAddress := 0, maxAdvertisingDataLength := 2000, numSupportedAdvertisingSets := 2 }
  agrees (initial none) [
    (cfg0, .setExtAdvertisingParameters 0 ⟨⟨false, false, false, false, false, false, false⟩, 0x800, 0x800, 7, .pub, .pub, 0, .allDevices, 0x70, .le1m, 0, .le2m, 0, false⟩, some .success),
    (cfg0, .setExtAdvertisingData 0 .completeAdvertisement ([1, 2, 3] ++ List.replicate 1648 0), some .success),
    (cfg0, .setExtAdvertisingEnable 0 (fun _ => rpa) true [⟨0, 0, 0⟩], some .packetTooLong)] = true := by
  decide +kernel

/-- LeSetExtendedAdvertisingEnableTest.NoRandomAddress (test/controller/le/le_set_extended_advertising_enable_test.cc 261-). -/
example :
  let cfg0 : Config := { Config.default with publicAddress := 0, maxAdvertisingDataLength := 2000, numSupportedAdvertisingSets := 2 }
  agrees (initial none) [
    (cfg0, .setExtAdvertisingParameters 0 ⟨⟨true, false, false, false, false, false, false⟩, 0x800, 0x800, 7, .random, .pub, 0, .allDevices, 0x70, .le1m, 0, .le2m, 0, false⟩, some .success),
    (cfg0, .setExtAdvertisingEnable 0 (fun _ => rpa) true [⟨0, 0, 0⟩], some .invalidHciCommandParameters)] = true := by
  decide +kernel

/-- LeSetExtendedAdvertisingEnableTest.NoResolvableOrRandomAddress (test/controller/le/le_set_extended_advertising_enable_test.cc 274-). -/
example :
  let cfg0 : Config := { Config.default with publicAddress := 0, maxAdvertisingDataLength := 2000, numSupportedAdvertisingSets := 2 }
  agrees (initial none) [
    (cfg0, .setExtAdvertisingParameters 0 ⟨⟨true, false, false, false, false, false, false⟩, 0x800, 0x800, 7, .resolvableOrRandom, .pub, 0, .allDevices, 0x70, .le1m, 0, .le2m, 0, false⟩, some .success),
    (cfg0, .setExtAdvertisingEnable 0 (fun _ => rpa) true [⟨0, 0, 0⟩], some .invalidHciCommandParameters)] = true := by
  decide +kernel

/-! ### le_set_extended_advertising_parameters_test.cc -/

/-- LeSetExtendedAdvertisingParametersTest.Success (test/controller/le/le_set_extended_advertising_parameters_test.cc 40-). -/
example :
  let cfg0 : Config := { Config.default with publicAddress := 0, numSupportedAdvertisingSets := 2 }
  agrees (initial none) [
    (cfg0, .setExtAdvertisingParameters 0 ⟨⟨true, false, false, false, false, false, false⟩, 0x800, 0x800, 7, .pub, .pub, 0, .allDevices, 0x70, .le1m, 0, .le2m, 0, false⟩, some .success)] = true := by
  decide +kernel

/-- LeSetExtendedAdvertisingParametersTest.LegacyUsed (test/controller/le/le_set_extended_advertising_parameters_test.cc 50-). -/
example :
  let cfg0 : Config := { Config.default with publicAddress := 0, numSupportedAdvertisingSets := 2 }
  agrees (initial none) [
    (cfg0, .setScanParameters .passive 0x2000 0x200 .pub .acceptAll, some .success),
    (cfg0, .setExtAdvertisingParameters 0 ⟨⟨true, false, false, false, false, false, false⟩, 0x800, 0x800, 7, .pub, .pub, 0, .allDevices, 0x70, .le1m, 0, .le2m, 0, false⟩, some .commandDisallowed)] = true := by
  decide +kernel

/-- LeSetExtendedAdvertisingParametersTest.AdvertisingSetsFull (test/controller/le/le_set_extended_advertising_parameters_test.cc 65-). -/
example :
  let cfg0 : Config := { Config.default with publicAddress := 0, numSupportedAdvertisingSets := 2 }
  agrees (initial none) [
    (cfg0, .setExtAdvertisingParameters 0 ⟨⟨true, false, false, false, false, false, false⟩, 0x800, 0x800, 7, .pub, .pub, 0, .allDevices, 0x70, .le1m, 0, .le2m, 0, false⟩, some .success),
    (cfg0, .setExtAdvertisingParameters 1 ⟨⟨true, false, false, false, false, false, false⟩, 0x800, 0x800, 7, .pub, .pub, 0, .allDevices, 0x70, .le1m, 0, .le2m, 0, false⟩, some .success),
    (cfg0, .setExtAdvertisingParameters 2 ⟨⟨true, false, false, false, false, false, false⟩, 0x800, 0x800, 7, .pub, .pub, 0, .allDevices, 0x70, .le1m, 0, .le2m, 0, false⟩, some .memoryCapacityExceeded)] = true := by
  decide +kernel

/-- LeSetExtendedAdvertisingParametersTest.InvalidLegacyAdvertisingEventProperties (test/controller/le/le_set_extended_advertising_parameters_test.cc 91-). -/
example :
  let cfg0 : Config := { Config.default with publicAddress := 0, numSupportedAdvertisingSets := 2 }
  agrees (initial none) [
    (cfg0, .setExtAdvertisingParameters 0 ⟨⟨false, true, true, false, true, false, false⟩, 0x800, 0x800, 7, .pub, .pub, 0, .allDevices, 0x70, .le1m, 0, .le2m, 0, false⟩, some .invalidHciCommandParameters)] = true := by
  decide +kernel

/-- LeSetExtendedAdvertisingParametersTest.UnexpectedAdvertisingData (test/controller/le/le_set_extended_advertising_parameters_test.cc 101-). -/
example :
  let cfg0 : Config := { Config.default with publicAddress := 0, numSupportedAdvertisingSets := 2 }
  agrees (initial none) [
    (cfg0, .setExtAdvertisingParameters 0 ⟨⟨true, true, false, false, true, false, false⟩, 0x800, 0x800, 7, .pub, .pub, 0, .allDevices, 0x70, .le1m, 0, .le2m, 0, false⟩, some .success),
    (cfg0, .setExtAdvertisingData 0 .completeAdvertisement [1, 2, 3], some .success),
    (cfg0, .setExtAdvertisingParameters 0 ⟨⟨true, false, true, false, true, false, false⟩, 0x800, 0x800, 7, .pub, .pub, 0, .allDevices, 0x70, .le1m, 0, .le2m, 0, false⟩, some .invalidHciCommandParameters)] = true := by
  decide +kernel

/-- LeSetExtendedAdvertisingParametersTest.UnexpectedScanResponseData (test/controller/le/le_set_extended_advertising_parameters_test.cc 125-). -/
example :
  let cfg0 : Config := { Config.default with publicAddress := 0, numSupportedAdvertisingSets := 2 }
  agrees (initial none) [
    (cfg0, .setExtAdvertisingParameters 0 ⟨⟨true, true, false, false, true, false, false⟩, 0x800, 0x800, 7, .pub, .pub, 0, .allDevices, 0x70, .le1m, 0, .le2m, 0, false⟩, some .success),
    (cfg0, .setExtScanResponseData 0 .completeAdvertisement [1, 2, 3], some .success),
    (cfg0, .setExtAdvertisingParameters 0 ⟨⟨true, false, false, false, true, false, false⟩, 0x800, 0x800, 7, .pub, .pub, 0, .allDevices, 0x70, .le1m, 0, .le2m, 0, false⟩, some .invalidHciCommandParameters)] = true := by
  decide +kernel

/-- LeSetExtendedAdvertisingParametersTest.InvalidLegacyAdvertisingData (test/controller/le/le_set_extended_advertising_parameters_test.cc 149-). -/
example :
  let cfg0 : Config := { Config.default with publicAddress := 0, numSupportedAdvertisingSets := 2 }
  agrees (initial none) [
    (cfg0, .setExtAdvertisingParameters 0 ⟨⟨true, false, false, false, false, false, false⟩, 0x800, 0x800, 7, .pub, .pub, 0, .allDevices, 0x70, .le1m, 0, .le2m, 0, false⟩, some .success),
    (cfg0, .setExtAdvertisingData 0 .completeAdvertisement ([1, 2, 3] ++ List.replicate 29 0), some .success),
    (cfg0, .setExtAdvertisingParameters 0 ⟨⟨true, false, false, false, true, false, false⟩, 0x800, 0x800, 7, .pub, .pub, 0, .allDevices, 0x70, .le1m, 0, .le2m, 0, false⟩, some .invalidHciCommandParameters)] = true := by
  decide +kernel

/-- LeSetExtendedAdvertisingParametersTest.InvalidLegacyScanResponseData (test/controller/le/le_set_extended_advertising_parameters_test.cc 174-). -/
example :
  let cfg0 : Config := { Config.default with publicAddress := 0, numSupportedAdvertisingSets := 2 }
  agrees (initial none) [
    (cfg0, .setExtAdvertisingParameters 0 ⟨⟨false, true, false, false, false, false, false⟩, 0x800, 0x800, 7, .pub, .pub, 0, .allDevices, 0x70, .le1m, 0, .le2m, 0, false⟩, some .success),
    (cfg0, .setExtScanResponseData 0 .completeAdvertisement ([1, 2, 3] ++ List.replicate 29 0), some .success),
    (cfg0, .setExtAdvertisingParameters 0 ⟨⟨false, true, false, false, true, false, false⟩, 0x800, 0x800, 7, .pub, .pub, 0, .allDevices, 0x70, .le1m, 0, .le2m, 0, false⟩, some .invalidHciCommandParameters)] = true := by
  decide +kernel

/-- LeSetExtendedAdvertisingParametersTest.InvalidExtendedAdvertisingEventProperties (test/controller/le/le_set_extended_advertising_parameters_test.cc 199-). -/
example :
  let cfg0 : Config := { Config.default with publicAddress := 0, numSupportedAdvertisingSets := 2 }
  agrees (initial none) [
    (cfg0, .setExtAdvertisingParameters 0 ⟨⟨true, true, false, false, false, false, false⟩, 0x800, 0x800, 7, .pub, .pub, 0, .allDevices, 0x70, .le1m, 0, .le2m, 0, false⟩, some .invalidHciCommandParameters),
    (cfg0, .setExtAdvertisingParameters 0 ⟨⟨true, false, true, true, false, false, false⟩, 0x800, 0x800, 7, .pub, .pub, 0, .allDevices, 0x70, .le1m, 0, .le2m, 0, false⟩, some .invalidHciCommandParameters)] = true := by
  decide +kernel

/-- LeSetExtendedAdvertisingParametersTest.InvalidPrimaryAdvertisingInterval (test/controller/le/le_set_extended_advertising_parameters_test.cc 217-). -/
example :
  let cfg0 : Config := { Config.default with publicAddress := 0, numSupportedAdvertisingSets := 2 }
  agrees (initial none) [
    (cfg0, .setExtAdvertisingParameters 0 ⟨⟨true, false, false, false, false, false, false⟩, 0x10, 0x800, 7, .pub, .pub, 0, .allDevices, 0x70, .le1m, 0, .le2m, 0, false⟩, some .unsupportedFeatureOrParameterValue),
    (cfg0, .setExtAdvertisingParameters 0 ⟨⟨true, false, false, false, false, false, false⟩, 0x800, 0x10, 7, .pub, .pub, 0, .allDevices, 0x70, .le1m, 0, .le2m, 0, false⟩, some .unsupportedFeatureOrParameterValue),
    (cfg0, .setExtAdvertisingParameters 0 ⟨⟨true, false, false, false, false, false, false⟩, 0x800, 0x400, 7, .pub, .pub, 0, .allDevices, 0x70, .le1m, 0, .le2m, 0, false⟩, some .invalidHciCommandParameters)] = true := by
  decide +kernel

/-- LeSetExtendedAdvertisingParametersTest.InvalidChannelMap (test/controller/le/le_set_extended_advertising_parameters_test.cc 243-). -/
example :
  let cfg0 : Config := { Config.default with publicAddress := 0, numSupportedAdvertisingSets := 2 }
  agrees (initial none) [
    (cfg0, .setExtAdvertisingParameters 0 ⟨⟨true, false, false, false, false, false, false⟩, 0x800, 0x800, 0, .pub, .pub, 0, .allDevices, 0x70, .le1m, 0, .le2m, 0, false⟩, some .invalidHciCommandParameters)] = true := by
  decide +kernel

/-- LeSetExtendedAdvertisingParametersTest.InvalidPrimaryPhy (test/controller/le/le_set_extended_advertising_parameters_test.cc 253-). -/
example :
  let cfg0 : Config := { Config.default with publicAddress := 0, numSupportedAdvertisingSets := 2 }
  agrees (initial none) [
    (cfg0, .setExtAdvertisingParameters 0 ⟨⟨true, false, false, false, true, false, false⟩, 0x800, 0x800, 7, .pub, .pub, 0, .allDevices, 0x70, .leCoded, 0, .le2m, 0, false⟩, some .invalidHciCommandParameters)] = true := by
  decide +kernel

/-- LeSetExtendedAdvertisingParametersTest.AdvertisingActive (test/controller/le/le_set_extended_advertising_parameters_test.cc 263-). -/
example :
  let cfg0 : Config := { Config.default with publicAddress := 0, numSupportedAdvertisingSets := 2 }
  agrees (initial none) [
    (cfg0, .setExtAdvertisingParameters 0 ⟨⟨true, false, false, false, false, false, false⟩, 0x800, 0x800, 7, .pub, .pub, 0, .allDevices, 0x70, .le1m, 0, .le2m, 0, false⟩, some .success),
    (cfg0, .setExtAdvertisingEnable 0 (fun _ => rpa) true [⟨0, 0, 0⟩], some .success),
    (cfg0, .setExtAdvertisingParameters 0 ⟨⟨false, false, false, false, false, false, false⟩, 0x800, 0x800, 7, .pub, .pub, 0, .allDevices, 0x70, .le1m, 0, .le2m, 0, false⟩, some .commandDisallowed)] = true := by
  decide +kernel

/-! ### le_set_extended_scan_enable_test.cc -/

/-- LeSetExtendedScanEnableTest.EnableUsingPublicAddress (test/controller/le/le_set_extended_scan_enable_test.cc 45-). -/
example :
  let cfg0 : Config := { Config.default with publicAddress := 0 }
  agrees (initial none) [
    (cfg0, .setExtendedScanParameters .pub .acceptAll 1 [⟨.passive, 0x2000, 0x200⟩], some .success),
    (cfg0, .setExtendedScanEnable 0 true .disabled 0 0, some .success)] = true := by
  decide +kernel

/-- LeSetExtendedScanEnableTest.EnableUsingRandomAddress (test/controller/le/le_set_extended_scan_enable_test.cc 54-). -/
example :
  let cfg0 : Config := { Config.default with publicAddress := 0 }
  agrees (initial none) [
    (cfg0, .setExtendedScanParameters .random .acceptAll 1 [⟨.passive, 0x2000, 0x200⟩], some .success),
    (cfg0, .setRandomAddress 1, some .success),
    (cfg0, .setExtendedScanEnable 0 true .disabled 0 0, some .success)] = true := by
  decide +kernel

/-- LeSetExtendedScanEnableTest.EnableUsingResolvableAddress (test/controller/le/le_set_extended_scan_enable_test.cc 64-). -/
example :
  let cfg0 : Config := { Config.default with publicAddress := 0 }
  agrees (initial none) [
    (cfg0, .setExtendedScanParameters .resolvableOrRandom .acceptAll 1 [⟨.passive, 0x2000, 0x200⟩], some .success),
    (cfg0, .setRandomAddress 1, some .success),
    (cfg0, .setExtendedScanEnable 0 true .disabled 0 0, some .success)] = true := by
  decide +kernel

/-- LeSetExtendedScanEnableTest.ResetEachPeriod (test/controller/le/le_set_extended_scan_enable_test.cc 75-). -/
example :
  let cfg0 : Config := { Config.default with publicAddress := 0 }
  agrees (initial none) [
    (cfg0, .setExtendedScanParameters .pub .acceptAll 1 [⟨.passive, 0x2000, 0x200⟩], some .success),
    (cfg0, .setExtendedScanEnable 0 true .resetEachPeriod 0x64 0x3e8, some .success)] = true := by
  decide +kernel

/-- LeSetExtendedScanEnableTest.Disable (test/controller/le/le_set_extended_scan_enable_test.cc 85-). -/
example :
  let cfg0 : Config := { Config.default with publicAddress := 0 }
  agrees (initial none) [
    (cfg0, .setExtendedScanEnable 0 false .disabled 0 0, some .success)] = true := by
  decide +kernel

/-- LeSetExtendedScanEnableTest.ValidDuration (test/controller/le/le_set_extended_scan_enable_test.cc 90-). -/
example :
  let cfg0 : Config := { Config.default with publicAddress := 0 }
  agrees (initial none) [
    (cfg0, .setExtendedScanParameters .pub .acceptAll 1 [⟨.passive, 0x2000, 0x200⟩], some .success),
    (cfg0, .setExtendedScanEnable 0 true .disabled 0x7f 1, some .success)] = true := by
  decide +kernel

/-- LeSetExtendedScanEnableTest.InvalidDuration (test/controller/le/le_set_extended_scan_enable_test.cc 100-). -/
example :
  let cfg0 : Config := { Config.default with publicAddress := 0 }
  agrees (initial none) [
    (cfg0, .setExtendedScanParameters .pub .acceptAll 1 [⟨.passive, 0x2000, 0x200⟩], some .success),
    (cfg0, .setExtendedScanEnable 0 true .resetEachPeriod 0 0, some .invalidHciCommandParameters),
    (cfg0, .setExtendedScanEnable 0 true .disabled 0x80 1, some .invalidHciCommandParameters)] = true := by
  decide +kernel

/-- LeSetExtendedScanEnableTest.NoRandomAddress (test/controller/le/le_set_extended_scan_enable_test.cc 112-). -/
example :
  let cfg0 : Config := { Config.default with publicAddress := 0 }
  agrees (initial none) [
    (cfg0, .setExtendedScanParameters .random .acceptAll 1 [⟨.passive, 0x2000, 0x200⟩], some .success),
    (cfg0, .setExtendedScanEnable 0 true .disabled 0 0, some .invalidHciCommandParameters),
    (cfg0, .setExtendedScanParameters .resolvableOrRandom .acceptAll 1 [⟨.passive, 0x2000, 0x200⟩], some .success),
    (cfg0, .setExtendedScanEnable 0 true .disabled 0 0, some .invalidHciCommandParameters)] = true := by
  decide +kernel

/-! ### le_set_extended_scan_parameters_test.cc -/

/-- LeSetExtendedScanParametersTest.Success (test/controller/le/le_set_extended_scan_parameters_test.cc 45-). -/
example :
  let cfg0 : Config := { Config.default with publicAddress := 0 }
  agrees (initial none) [
    (cfg0, .setExtendedScanParameters .pub .acceptAll 5 [⟨.passive, 0x2000, 0x200⟩, ⟨.active, 0x2000, 0x200⟩], some .success)] = true := by
  decide +kernel

/-- LeSetExtendedScanParametersTest.ScanningActive (test/controller/le/le_set_extended_scan_parameters_test.cc 53-). -/
example :
  let cfg0 : Config := { Config.default with publicAddress := 0 }
  agrees (initial none) [
    (cfg0, .setExtendedScanParameters .pub .acceptAll 5 [⟨.passive, 0x2000, 0x200⟩, ⟨.active, 0x2000, 0x200⟩], some .success),
    (cfg0, .setExtendedScanEnable 0 true .disabled 0 0, some .success),
    (cfg0, .setExtendedScanParameters .pub .acceptAll 5 [⟨.passive, 0x2000, 0x200⟩, ⟨.active, 0x2000, 0x200⟩], some .commandDisallowed)] = true := by
  decide +kernel

/-- LeSetExtendedScanParametersTest.ReservedPhy (test/controller/le/le_set_extended_scan_parameters_test.cc 69-). -/
example :
  let cfg0 : Config := { Config.default with publicAddress := 0 }
  agrees (initial none) [
    (cfg0, .setExtendedScanParameters .pub .acceptAll 0x80 [⟨.passive, 0x2000, 0x200⟩], some .unsupportedFeatureOrParameterValue)] = true := by
  decide +kernel

/-- LeSetExtendedScanParametersTest.InvalidPhyParameters (test/controller/le/le_set_extended_scan_parameters_test.cc 76-). -/
example :
  let cfg0 : Config := { Config.default with publicAddress := 0 }
  agrees (initial none) [
    (cfg0, .setExtendedScanParameters .pub .acceptAll 1 [], some .invalidHciCommandParameters),
    (cfg0, .setExtendedScanParameters .pub .acceptAll 1 [⟨.passive, 0x2000, 0x200⟩, ⟨.passive, 0x2000, 0x200⟩], some .invalidHciCommandParameters)] = true := by
  decide +kernel

/-- LeSetExtendedScanParametersTest.InvalidScanInterval (test/controller/le/le_set_extended_scan_parameters_test.cc 88-). -/
example :
  let cfg0 : Config := { Config.default with publicAddress := 0 }
  agrees (initial none) [
    (cfg0, .setExtendedScanParameters .pub .acceptAll 1 [⟨.passive, 0, 0x200⟩], some .invalidHciCommandParameters)] = true := by
  decide +kernel

/-- LeSetExtendedScanParametersTest.InvalidScanWindow (test/controller/le/le_set_extended_scan_parameters_test.cc 95-). -/
example :
  let cfg0 : Config := { Config.default with publicAddress := 0 }
  agrees (initial none) [
    (cfg0, .setExtendedScanParameters .pub .acceptAll 1 [⟨.passive, 0x2000, 0⟩], some .invalidHciCommandParameters),
    (cfg0, .setExtendedScanParameters .pub .acceptAll 1 [⟨.passive, 0x2000, 0x2001⟩], some .invalidHciCommandParameters)] = true := by
  decide +kernel

/-! ### le_set_extended_scan_response_data_test.cc -/

/-- LeSetExtendedScanResponseDataTest.Complete (test/controller/le/le_set_extended_scan_response_data_test.cc 41-). -/
example :
  let cfg0 : Config := { Config.default with publicAddress := 0, maxAdvertisingDataLength := 300, numSupportedAdvertisingSets := 2 }
  agrees (initial none) [
    (cfg0, .setExtAdvertisingParameters 0 ⟨⟨false, true, false, false, false, false, false⟩, 0x800, 0x800, 7, .pub, .pub, 0, .allDevices, 0x70, .le1m, 0, .le2m, 0, false⟩, some .success),
    (cfg0, .setExtScanResponseData 0 .completeAdvertisement [1, 2, 3], some .success)] = true := by
  decide +kernel

/-- LeSetExtendedScanResponseDataTest.Discard (test/controller/le/le_set_extended_scan_response_data_test.cc 57-). -/
example :
  let cfg0 : Config := { Config.default with publicAddress := 0, maxAdvertisingDataLength := 300, numSupportedAdvertisingSets := 2 }
  agrees (initial none) [
    (cfg0, .setExtAdvertisingParameters 0 ⟨⟨true, false, false, false, false, false, false⟩, 0x800, 0x800, 7, .pub, .pub, 0, .allDevices, 0x70, .le1m, 0, .le2m, 0, false⟩, some .success),
    (cfg0, .setExtScanResponseData 0 .completeAdvertisement [], some .success)] = true := by
  decide +kernel

/-- LeSetExtendedScanResponseDataTest.Unchanged (test/controller/le/le_set_extended_scan_response_data_test.cc 72-). -/
example :
  let cfg0 : Config := { Config.default with publicAddress := 0, maxAdvertisingDataLength := 300, numSupportedAdvertisingSets := 2 }
  agrees (initial none) [
    (cfg0, .setExtAdvertisingParameters 0 ⟨⟨false, true, false, false, false, false, false⟩, 0x800, 0x800, 7, .pub, .pub, 0, .allDevices, 0x70, .le1m, 0, .le2m, 0, false⟩, some .success),
    (cfg0, .setExtScanResponseData 0 .completeAdvertisement [1, 2, 3], some .success),
    (cfg0, .setExtAdvertisingEnable 0 (fun _ => rpa) true [⟨0, 0, 0⟩], some .success),
    (cfg0, .setExtScanResponseData 0 .unchangedData [], some .invalidHciCommandParameters)] = true := by
  decide +kernel

/-- LeSetExtendedScanResponseDataTest.Fragmented (test/controller/le/le_set_extended_scan_response_data_test.cc 95-). -/
example :
  let cfg0 : Config := { Config.default with publicAddress := 0, maxAdvertisingDataLength := 300, numSupportedAdvertisingSets := 2 }
  agrees (initial none) [
    (cfg0, .setExtAdvertisingParameters 0 ⟨⟨false, true, false, false, false, false, false⟩, 0x800, 0x800, 7, .pub, .pub, 0, .allDevices, 0x70, .le1m, 0, .le2m, 0, false⟩, some .success),
    (cfg0, .setExtScanResponseData 0 .firstFragment [1, 2, 3], some .success),
    (cfg0, .setExtScanResponseData 0 .intermediateFragment [4, 5, 6], some .success),
    (cfg0, .setExtScanResponseData 0 .lastFragment [7, 8, 9], some .success)] = true := by
  decide +kernel

/-- LeSetExtendedScanResponseDataTest.UnknownAdvertisingHandle (test/controller/le/le_set_extended_scan_response_data_test.cc 124-). -/
example :
  let cfg0 : Config := { Config.default with publicAddress := 0, maxAdvertisingDataLength := 300, numSupportedAdvertisingSets := 2 }
  agrees (initial none) [
    (cfg0, .setExtAdvertisingParameters 0 ⟨⟨false, true, false, false, false, false, false⟩, 0x800, 0x800, 7, .pub, .pub, 0, .allDevices, 0x70, .le1m, 0, .le2m, 0, false⟩, some .success),
    (cfg0, .setExtScanResponseData 1 .completeAdvertisement [1, 2, 3], some .unknownAdvertisingIdentifier)] = true := by
  decide +kernel

/-- LeSetExtendedScanResponseDataTest.UnexpectedScanResponseData (test/controller/le/le_set_extended_scan_response_data_test.cc 140-). -/
example :
  let cfg0 : Config := { Config.default with publicAddress := 0, maxAdvertisingDataLength := 300, numSupportedAdvertisingSets := 2 }
  agrees (initial none) [
    (cfg0, .setExtAdvertisingParameters 0 ⟨⟨true, false, false, false, false, false, false⟩, 0x800, 0x800, 7, .pub, .pub, 0, .allDevices, 0x70, .le1m, 0, .le2m, 0, false⟩, some .success),
    (cfg0, .setExtScanResponseData 0 .completeAdvertisement [1, 2, 3], some .invalidHciCommandParameters)] = true := by
  decide +kernel

/-- LeSetExtendedScanResponseDataTest.IncompleteLegacyScanResponseData (test/controller/le/le_set_extended_scan_response_data_test.cc 156-). -/
example :
  let cfg0 : Config := { Config.default with publicAddress := 0, maxAdvertisingDataLength := 300, numSupportedAdvertisingSets := 2 }
  agrees (initial none) [
    (cfg0, .setExtAdvertisingParameters 0 ⟨⟨false, true, false, false, true, false, false⟩, 0x800, 0x800, 7, .pub, .pub, 0, .allDevices, 0x70, .le1m, 0, .le2m, 0, false⟩, some .success),
    (cfg0, .setExtScanResponseData 0 .firstFragment [1, 2, 3], some .invalidHciCommandParameters)] = true := by
  decide +kernel

/-- LeSetExtendedScanResponseDataTest.InvalidLegacyScanResponseData (test/controller/le/le_set_extended_scan_response_data_test.cc 172-). -/
example :
  let cfg0 : Config := { Config.default with publicAddress := 0, maxAdvertisingDataLength := 300, numSupportedAdvertisingSets := 2 }
  agrees (initial none) [
    (cfg0, .setExtAdvertisingParameters 0 ⟨⟨false, true, false, false, true, false, false⟩, 0x800, 0x800, 7, .pub, .pub, 0, .allDevices, 0x70, .le1m, 0, .le2m, 0, false⟩, some .success),
    (cfg0, .setExtScanResponseData 0 .completeAdvertisement ([1, 2, 3] ++ List.replicate 29 0), some .invalidHciCommandParameters)] = true := by
  decide +kernel

/-- LeSetExtendedScanResponseDataTest.EmptyScanResponseDataFragment (test/controller/le/le_set_extended_scan_response_data_test.cc 189-). -/
example :
  let cfg0 : Config := { Config.default with publicAddress := 0, maxAdvertisingDataLength := 300, numSupportedAdvertisingSets := 2 }
  agrees (initial none) [
    (cfg0, .setExtAdvertisingParameters 0 ⟨⟨false, true, false, false, false, false, false⟩, 0x800, 0x800, 7, .pub, .pub, 0, .allDevices, 0x70, .le1m, 0, .le2m, 0, false⟩, some .success),
    (cfg0, .setExtScanResponseData 0 .firstFragment [], some .invalidHciCommandParameters),
    (cfg0, .setExtScanResponseData 0 .firstFragment [1, 2, 3], some .success),
    (cfg0, .setExtScanResponseData 0 .intermediateFragment [], some .invalidHciCommandParameters),
    (cfg0, .setExtScanResponseData 0 .intermediateFragment [4, 5, 6], some .success),
    (cfg0, .setExtScanResponseData 0 .lastFragment [], some .invalidHciCommandParameters),
    (cfg0, .setExtScanResponseData 0 .lastFragment [7, 8, 9], some .success)] = true := by
  decide +kernel

/-- LeSetExtendedScanResponseDataTest.AdvertisingEnabled (test/controller/le/le_set_extended_scan_response_data_test.cc 231-). -/
example :
  let cfg0 : Config := { Config.default with publicAddress := 0, maxAdvertisingDataLength := 300, numSupportedAdvertisingSets := 2 }
  agrees (initial none) [
    (cfg0, .setExtAdvertisingParameters 0 ⟨⟨false, true, false, false, false, false, false⟩, 0x800, 0x800, 7, .pub, .pub, 0, .allDevices, 0x70, .le1m, 0, .le2m, 0, false⟩, some .success),
    (cfg0, .setExtScanResponseData 0 .completeAdvertisement [1, 2, 3], some .success),
    (cfg0, .setExtAdvertisingEnable 0 (fun _ => rpa) true [⟨0, 0, 0⟩], some .success),
    (cfg0, .setExtScanResponseData 0 .firstFragment [1, 2, 3], some .commandDisallowed)] = true := by
  decide +kernel

/-- LeSetExtendedScanResponseDataTest.EmptyExtendedScanResponseData (test/controller/le/le_set_extended_scan_response_data_test.cc 255-). -/
example :
  let cfg0 : Config := { Config.default with publicAddress := 0, maxAdvertisingDataLength := 300, numSupportedAdvertisingSets := 2 }
  agrees (initial none) [
    (cfg0, .setExtAdvertisingParameters 0 ⟨⟨false, true, false, false, false, false, false⟩, 0x800, 0x800, 7, .pub, .pub, 0, .allDevices, 0x70, .le1m, 0, .le2m, 0, false⟩, some .success),
    (cfg0, .setExtScanResponseData 0 .completeAdvertisement [1, 2, 3], some .success),
    (cfg0, .setExtAdvertisingEnable 0 (fun _ => rpa) true [⟨0, 0, 0⟩], some .success),
    (cfg0, .setExtScanResponseData 0 .completeAdvertisement [], some .commandDisallowed)] = true := by
  decide +kernel

/-- LeSetExtendedScanResponseDataTest.ScanResponseDataLargerThanMemoryCapacity (test/controller/le/le_set_extended_scan_response_data_test.cc 279-). -/
example :
  let cfg0 : Config := { Config.default with publicAddress := 0, maxAdvertisingDataLength := 300, numSupportedAdvertisingSets := 2 }
  agrees (initial none) [
    (cfg0, .setExtAdvertisingParameters 0 ⟨⟨false, true, false, false, false, false, false⟩, 0x800, 0x800, 7, .pub, .pub, 0, .allDevices, 0x70, .le1m, 0, .le2m, 0, false⟩, some .success),
    (cfg0, .setExtScanResponseData 0 .firstFragment ([1, 2, 3] ++ List.replicate 297 0), some .success),
    (cfg0, .setExtScanResponseData 0 .lastFragment ([1, 2, 3] ++ List.replicate 297 0), some .memoryCapacityExceeded)] = true := by
  decide +kernel

/-- LeSetExtendedScanResponseDataTest.ScanResponseDataLargerThanPduCapacity (test/controller/le/le_set_extended_scan_response_data_test.cc 301-). -/
example :
  let cfg0 : Config := { Config.default with publicAddress := 0, maxAdvertisingDataLength := 5000, numSupportedAdvertisingSets := 2 }
  agrees (initial none) [
    (cfg0, .setExtAdvertisingParameters 0 ⟨⟨false, true, false, false, false, false, false⟩, 0x800, 0x800, 7, .pub, .pub, 0, .allDevices, 0x70, .le1m, 0, .le2m, 0, false⟩, some .success),
    (cfg0, .setExtScanResponseData 0 .completeAdvertisement [1, 2, 3], some .success),
    (cfg0, .setExtAdvertisingEnable 0 (fun _ => rpa) true [⟨0, 0, 0⟩], some .success),
    (cfg0, .setExtScanResponseData 0 .completeAdvertisement ([1, 2, 3] ++ List.replicate 1648 0), some .packetTooLong)] = true := by
  decide +kernel

/-! ### le_set_periodic_advertising_data_test.cc -/

/-- LeSetPeriodicAdvertisingDataTest.Complete (test/controller/le/le_set_periodic_advertising_data_test.cc 40-). -/
example :
  let cfg0 : Config := { Config.default with publicAddress := 0, maxAdvertisingDataLength := 300 }
  agrees (initial none) [
    (cfg0, .setExtAdvertisingParameters 0 ⟨⟨false, false, false, false, false, false, false⟩, 0x800, 0x800, 7, .pub, .pub, 0, .allDevices, 0x70, .le1m, 0, .le2m, 0, false⟩, some .success),
    (cfg0, .setPeriodicParameters 0 6 0xffff, some .success),
    (cfg0, .setPeriodicData 0 .completeAdvertisement [1, 2, 3], some .success)] = true := by
  decide +kernel

/-- LeSetPeriodicAdvertisingDataTest.Unchanged (test/controller/le/le_set_periodic_advertising_data_test.cc 58-). -/
example :
  let cfg0 : Config := { Config.default with publicAddress := 0, maxAdvertisingDataLength := 300 }
  agrees (initial none) [
    (cfg0, .setExtAdvertisingParameters 0 ⟨⟨false, false, false, false, false, false, false⟩, 0x800, 0x800, 7, .pub, .pub, 0, .allDevices, 0x70, .le1m, 0, .le2m, 0, false⟩, some .success),
    (cfg0, .setPeriodicParameters 0 6 0xffff, some .success),
    (cfg0, .setPeriodicData 0 .completeAdvertisement [1, 2, 3], some .success),
    (cfg0, .setPeriodicEnable 0 true false 0, some .success),
    (cfg0, .setPeriodicData 0 .unchangedData [], some .success)] = true := by
  decide +kernel

/-- LeSetPeriodicAdvertisingDataTest.Fragmented (test/controller/le/le_set_periodic_advertising_data_test.cc 81-). -/
example :
  let cfg0 : Config := { Config.default with publicAddress := 0, maxAdvertisingDataLength := 300 }
  agrees (initial none) [
    (cfg0, .setExtAdvertisingParameters 0 ⟨⟨false, false, false, false, false, false, false⟩, 0x800, 0x800, 7, .pub, .pub, 0, .allDevices, 0x70, .le1m, 0, .le2m, 0, false⟩, some .success),
    (cfg0, .setPeriodicParameters 0 6 0xffff, some .success),
    (cfg0, .setPeriodicData 0 .firstFragment [1, 2, 3], some .success),
    (cfg0, .setPeriodicData 0 .intermediateFragment [4, 5, 6], some .success),
    (cfg0, .setPeriodicData 0 .lastFragment [7, 8, 9], some .success)] = true := by
  decide +kernel

/-- LeSetPeriodicAdvertisingDataTest.UnknownAdvertisingHandle (test/controller/le/le_set_periodic_advertising_data_test.cc 110-). -/
example :
  let cfg0 : Config := { Config.default with publicAddress := 0, maxAdvertisingDataLength := 300 }
  agrees (initial none) [
    (cfg0, .setPeriodicData 0 .completeAdvertisement [1, 2, 3], some .unknownAdvertisingIdentifier)] = true := by
  decide +kernel

/-- LeSetPeriodicAdvertisingDataTest.PeriodicAdvertisingNotConfigured (test/controller/le/le_set_periodic_advertising_data_test.cc 117-). -/
example :
  let cfg0 : Config := { Config.default with publicAddress := 0, maxAdvertisingDataLength := 300 }
  agrees (initial none) [
    (cfg0, .setExtAdvertisingParameters 0 ⟨⟨false, false, false, false, false, false, false⟩, 0x800, 0x800, 7, .pub, .pub, 0, .allDevices, 0x70, .le1m, 0, .le2m, 0, false⟩, some .success),
    (cfg0, .setPeriodicData 0 .completeAdvertisement [1, 2, 3], some .commandDisallowed)] = true := by
  decide +kernel

/-- LeSetPeriodicAdvertisingDataTest.PeriodicAdvertisingEnabled (test/controller/le/le_set_periodic_advertising_data_test.cc 132-). -/
example :
  let cfg0 : Config := { Config.default with publicAddress := 0, maxAdvertisingDataLength := 300 }
  agrees (initial none) [
    (cfg0, .setExtAdvertisingParameters 0 ⟨⟨false, false, false, false, false, false, false⟩, 0x800, 0x800, 7, .pub, .pub, 0, .allDevices, 0x70, .le1m, 0, .le2m, 0, false⟩, some .success),
    (cfg0, .setPeriodicParameters 0 6 0xffff, some .success),
    (cfg0, .setPeriodicEnable 0 true false 0, some .success),
    (cfg0, .setPeriodicData 0 .firstFragment [1, 2, 3], some .commandDisallowed)] = true := by
  decide +kernel

/-- LeSetPeriodicAdvertisingDataTest.EmptyAdvertisingDataFragment (test/controller/le/le_set_periodic_advertising_data_test.cc 152-). -/
example :
  let cfg0 : Config := { Config.default with publicAddress := 0, maxAdvertisingDataLength := 300 }
  agrees (initial none) [
    (cfg0, .setExtAdvertisingParameters 0 ⟨⟨false, false, false, false, false, false, false⟩, 0x800, 0x800, 7, .pub, .pub, 0, .allDevices, 0x70, .le1m, 0, .le2m, 0, false⟩, some .success),
    (cfg0, .setPeriodicParameters 0 6 0xffff, some .success),
    (cfg0, .setPeriodicData 0 .firstFragment [], some .invalidHciCommandParameters),
    (cfg0, .setPeriodicData 0 .firstFragment [1, 2, 3], some .success),
    (cfg0, .setPeriodicData 0 .intermediateFragment [], some .invalidHciCommandParameters),
    (cfg0, .setPeriodicData 0 .intermediateFragment [4, 5, 6], some .success),
    (cfg0, .setPeriodicData 0 .lastFragment [], some .invalidHciCommandParameters),
    (cfg0, .setPeriodicData 0 .lastFragment [7, 8, 9], some .success)] = true := by
  decide +kernel

/-- LeSetPeriodicAdvertisingDataTest.UnchangedWhenDisabled (test/controller/le/le_set_periodic_advertising_data_test.cc 190-). -/
example :
  let cfg0 : Config := { Config.default with publicAddress := 0, maxAdvertisingDataLength := 300 }
  agrees (initial none) [
    (cfg0, .setExtAdvertisingParameters 0 ⟨⟨false, false, false, false, false, false, false⟩, 0x800, 0x800, 7, .pub, .pub, 0, .allDevices, 0x70, .le1m, 0, .le2m, 0, false⟩, some .success),
    (cfg0, .setPeriodicParameters 0 6 0xffff, some .success),
    (cfg0, .setPeriodicData 0 .completeAdvertisement [1, 2, 3], some .success),
    (cfg0, .setPeriodicData 0 .unchangedData [], some .invalidHciCommandParameters)] = true := by
  decide +kernel

/-- LeSetPeriodicAdvertisingDataTest.UnchangedWhenAdvertisingDataEmpty (test/controller/le/le_set_periodic_advertising_data_test.cc 211-). -/
example :
  let cfg0 : Config := { Config.default with publicAddress := 0, maxAdvertisingDataLength := 300 }
  agrees (initial none) [
    (cfg0, .setExtAdvertisingParameters 0 ⟨⟨false, false, false, false, false, false, false⟩, 0x800, 0x800, 7, .pub, .pub, 0, .allDevices, 0x70, .le1m, 0, .le2m, 0, false⟩, some .success),
    (cfg0, .setPeriodicParameters 0 6 0xffff, some .success),
    (cfg0, .setPeriodicEnable 0 true false 0, some .success),
    (cfg0, .setPeriodicData 0 .unchangedData [], some .invalidHciCommandParameters)] = true := by
  decide +kernel

/-- LeSetPeriodicAdvertisingDataTest.AdvertisingDataLargerThanMemoryCapacity (test/controller/le/le_set_periodic_advertising_data_test.cc 229-). -/
example :
  let cfg0 : Config := { Config.default with publicAddress := 0, maxAdvertisingDataLength := 300 }
  agrees (initial none) [
    (cfg0, .setExtAdvertisingParameters 0 ⟨⟨false, false, false, false, false, false, false⟩, 0x800, 0x800, 7, .pub, .pub, 0, .allDevices, 0x70, .le1m, 0, .le2m, 0, false⟩, some .success),
    (cfg0, .setPeriodicParameters 0 6 0xffff, some .success),
    (cfg0, .setPeriodicData 0 .firstFragment ([1, 2, 3] ++ List.replicate 297 0), some .success),
    (cfg0, .setPeriodicData 0 .lastFragment ([1, 2, 3] ++ List.replicate 297 0), some .memoryCapacityExceeded)] = true := by
  decide +kernel

/-! ### le_set_periodic_advertising_enable_test.cc -/

/-- LeSetPeriodicAdvertisingEnableTest.Enable (test/controller/le/le_set_periodic_advertising_enable_test.cc 37-). -/
example :
  let cfg0 : Config := { Config.default with publicAddress := 0 }
  agrees (initial none) [
    (cfg0, .setExtAdvertisingParameters 0 ⟨⟨false, false, false, false, false, false, false⟩, 0x800, 0x800, 7, .pub, .pub, 0, .allDevices, 0x70, .le1m, 0, .le2m, 0, false⟩, some .success),
    (cfg0, .setPeriodicParameters 0 6 0xffff, some .success),
    (cfg0, .setPeriodicData 0 .completeAdvertisement [1, 2, 3], some .success),
    (cfg0, .setPeriodicEnable 0 true false 0, some .success)] = true := by
  decide +kernel

/-- LeSetPeriodicAdvertisingEnableTest.Disable (test/controller/le/le_set_periodic_advertising_enable_test.cc 57-). -/
example :
  let cfg0 : Config := { Config.default with publicAddress := 0 }
  agrees (initial none) [
    (cfg0, .setExtAdvertisingParameters 0 ⟨⟨false, false, false, false, false, false, false⟩, 0x800, 0x800, 7, .pub, .pub, 0, .allDevices, 0x70, .le1m, 0, .le2m, 0, false⟩, some .success),
    (cfg0, .setPeriodicParameters 0 6 0xffff, some .success),
    (cfg0, .setPeriodicEnable 0 false false 0, some .success)] = true := by
  decide +kernel

/-- LeSetPeriodicAdvertisingEnableTest.UnknownAdvertisingHandle (test/controller/le/le_set_periodic_advertising_enable_test.cc 72-). -/
example :
  let cfg0 : Config := { Config.default with publicAddress := 0 }
  agrees (initial none) [
    (cfg0, .setPeriodicEnable 0 true false 0, some .unknownAdvertisingIdentifier),
    (cfg0, .setPeriodicEnable 0 false false 0, some .unknownAdvertisingIdentifier)] = true := by
  decide +kernel

/-- LeSetPeriodicAdvertisingEnableTest.PartialAdvertisingData (test/controller/le/le_set_periodic_advertising_enable_test.cc 80-). -/
example :
  let cfg0 : Config := { Config.default with publicAddress := 0 }
  agrees (initial none) [
    (cfg0, .setExtAdvertisingParameters 0 ⟨⟨false, false, false, false, false, false, false⟩, 0x800, 0x800, 7, .pub, .pub, 0, .allDevices, 0x70, .le1m, 0, .le2m, 0, false⟩, some .success),
    (cfg0, .setPeriodicParameters 0 6 0xffff, some .success),
    (cfg0, .setPeriodicData 0 .firstFragment [1, 2, 3], some .success),
    (cfg0, .setPeriodicEnable 0 true false 0, some .commandDisallowed)] = true := by
  decide +kernel

/-- LeSetPeriodicAdvertisingEnableTest.PeriodicAdvertisingNotConfigured (test/controller/le/le_set_periodic_advertising_enable_test.cc 101-). -/
example :
  let cfg0 : Config := { Config.default with publicAddress := 0 }
  agrees (initial none) [
    (cfg0, .setExtAdvertisingParameters 0 ⟨⟨false, false, false, false, false, false, false⟩, 0x800, 0x800, 7, .pub, .pub, 0, .allDevices, 0x70, .le1m, 0, .le2m, 0, false⟩, some .success),
    (cfg0, .setPeriodicEnable 0 true false 0, some .commandDisallowed)] = true := by
  decide +kernel

/-- LeSetPeriodicAdvertisingEnableTest.InvalidAdvertisingEventProperties (test/controller/le/le_set_periodic_advertising_enable_test.cc 114-). -/
example :
  let cfg0 : Config := { Config.default with publicAddress := 0 }
  agrees (initial none) [
    (cfg0, .setExtAdvertisingParameters 0 ⟨⟨false, false, false, false, false, false, false⟩, 0x800, 0x800, 7, .pub, .pub, 0, .allDevices, 0x70, .le1m, 0, .le2m, 0, false⟩, some .success),
    (cfg0, .setPeriodicParameters 0 6 0xffff, some .success),
    (cfg0, .setExtAdvertisingParameters 0 ⟨⟨true, false, false, false, false, false, false⟩, 0x800, 0x800, 7, .pub, .pub, 0, .allDevices, 0x70, .le1m, 0, .le2m, 0, false⟩, some .success),
    (cfg0, .setPeriodicEnable 0 true false 0, some .commandDisallowed)] = true := by
  decide +kernel

/-! ### le_set_periodic_advertising_parameters_test.cc -/

/-- LeSetPeriodicAdvertisingParametersTest.Success (test/controller/le/le_set_periodic_advertising_parameters_test.cc 37-). -/
example :
  let cfg0 : Config := { Config.default with publicAddress := 0 }
  agrees (initial none) [
    (cfg0, .setExtAdvertisingParameters 0 ⟨⟨false, false, false, false, false, false, false⟩, 0x800, 0x800, 7, .pub, .pub, 0, .allDevices, 0x70, .le1m, 0, .le2m, 0, false⟩, some .success),
    (cfg0, .setPeriodicParameters 0 6 0xffff, some .success)] = true := by
  decide +kernel

/-- LeSetPeriodicAdvertisingParametersTest.UnknownAdvertisingHandle (test/controller/le/le_set_periodic_advertising_parameters_test.cc 50-). -/
example :
  let cfg0 : Config := { Config.default with publicAddress := 0 }
  agrees (initial none) [
    (cfg0, .setPeriodicParameters 0 6 0xffff, some .unknownAdvertisingIdentifier)] = true := by
  decide +kernel

/-- LeSetPeriodicAdvertisingParametersTest.InvalidAdvertisingInterval (test/controller/le/le_set_periodic_advertising_parameters_test.cc 55-). -/
example :
  let cfg0 : Config := { Config.default with publicAddress := 0 }
  agrees (initial none) [
    (cfg0, .setExtAdvertisingParameters 0 ⟨⟨false, false, false, false, false, false, false⟩, 0x800, 0x800, 7, .pub, .pub, 0, .allDevices, 0x70, .le1m, 0, .le2m, 0, false⟩, some .success),
    (cfg0, .setPeriodicParameters 0 0 0xffff, some .invalidHciCommandParameters),
    (cfg0, .setPeriodicParameters 0 0xffff 6, some .invalidHciCommandParameters)] = true := by
  decide +kernel

/-- LeSetPeriodicAdvertisingParametersTest.InvalidLegacyAdvertisingEventProperties (test/controller/le/le_set_periodic_advertising_parameters_test.cc 71-). -/
example :
  let cfg0 : Config := { Config.default with publicAddress := 0 }
  agrees (initial none) [
    (cfg0, .setExtAdvertisingParameters 0 ⟨⟨false, true, true, false, true, false, false⟩, 0x800, 0x800, 7, .pub, .pub, 0, .allDevices, 0x70, .le1m, 0, .le2m, 0, false⟩, some .invalidHciCommandParameters)] = true := by
  decide +kernel

/-- LeSetPeriodicAdvertisingParametersTest.InvalidAdvertisingEventProperties (test/controller/le/le_set_periodic_advertising_parameters_test.cc 81-). -/
example :
  let cfg0 : Config := { Config.default with publicAddress := 0 }
  agrees (initial none) [
    (cfg0, .setExtAdvertisingParameters 0 ⟨⟨true, false, false, false, false, false, false⟩, 0x800, 0x800, 7, .pub, .pub, 0, .allDevices, 0x70, .le1m, 0, .le2m, 0, false⟩, some .success),
    (cfg0, .setPeriodicParameters 0 6 0xffff, some .invalidHciCommandParameters),
    (cfg0, .setExtAdvertisingParameters 1 ⟨⟨false, true, false, false, false, false, false⟩, 0x800, 0x800, 7, .pub, .pub, 0, .allDevices, 0x70, .le1m, 0, .le2m, 0, false⟩, some .success),
    (cfg0, .setPeriodicParameters 1 6 0xffff, some .invalidHciCommandParameters),
    (cfg0, .setExtAdvertisingParameters 2 ⟨⟨false, false, false, false, false, true, false⟩, 0x800, 0x800, 7, .pub, .pub, 0, .allDevices, 0x70, .le1m, 0, .le2m, 0, false⟩, some .success),
    (cfg0, .setPeriodicParameters 2 6 0xffff, some .invalidHciCommandParameters),
    (cfg0, .setExtAdvertisingParameters 3 ⟨⟨false, false, false, false, true, false, false⟩, 0x800, 0x800, 7, .pub, .pub, 0, .allDevices, 0x70, .le1m, 0, .le2m, 0, false⟩, some .success),
    (cfg0, .setPeriodicParameters 3 6 0xffff, some .invalidHciCommandParameters)] = true := by
  decide +kernel

/-- LeSetPeriodicAdvertisingParametersTest.PeriodicAdvertisingEnabled (test/controller/le/le_set_periodic_advertising_parameters_test.cc 127-). -/
example :
  let cfg0 : Config := { Config.default with publicAddress := 0 }
  agrees (initial none) [
    (cfg0, .setExtAdvertisingParameters 0 ⟨⟨false, false, false, false, false, false, false⟩, 0x800, 0x800, 7, .pub, .pub, 0, .allDevices, 0x70, .le1m, 0, .le2m, 0, false⟩, some .success),
    (cfg0, .setPeriodicParameters 0 6 0xffff, some .success),
    (cfg0, .setPeriodicEnable 0 true false 0, some .success),
    (cfg0, .setPeriodicParameters 0 6 0xffff, some .commandDisallowed)] = true := by
  decide +kernel

/-! ### le_set_random_address_test.cc -/

/-- LeSetRandomAddressTest.Success (test/controller/le/le_set_random_address_test.cc 37-). -/
example :
  let cfg0 : Config := { Config.default with publicAddress := 0 }
  agrees (initial none) [
    (cfg0, .setRandomAddress 1, some .success)] = true := by
  decide +kernel

/-- LeSetRandomAddressTest.ScanningActive (test/controller/le/le_set_random_address_test.cc 41-). -/
example :
  let cfg0 : Config := { Config.default with publicAddress := 0 }
  agrees (initial none) [
    (cfg0, .setScanEnable true false, none),
    (cfg0, .setRandomAddress 1, some .commandDisallowed)] = true := by
  decide +kernel

/-- LeSetRandomAddressTest.LegacyAdvertisingActive (test/controller/le/le_set_random_address_test.cc 46-). -/
example :
  let cfg0 : Config := { Config.default with publicAddress := 0 }
  agrees (initial none) [
    (cfg0, .setAdvertisingEnable 0 (fun _ => rpa) true, some .success),
    (cfg0, .setRandomAddress 1, some .commandDisallowed)] = true := by
  decide +kernel

/-- LeSetRandomAddressTest.ExtendedAdvertisingActive (test/controller/le/le_set_random_address_test.cc 51-). -/
example :
  let cfg0 : Config := { Config.default with publicAddress := 0 }
  agrees (initial none) [
    (cfg0, .setExtAdvertisingParameters 0 ⟨⟨true, false, false, false, false, false, false⟩, 0x800, 0x800, 7, .pub, .pub, 0, .listedScan, 0x70, .le1m, 0, .le2m, 0, false⟩, some .success),
    (cfg0, .setExtAdvertisingEnable 0 (fun _ => rpa) true [⟨0, 0, 0⟩], some .success),
    (cfg0, .setRandomAddress 1, some .success)] = true := by
  decide +kernel

/-! ### le_set_scan_enable_test.cc -/

/-- LeSetScanEnableTest.EnableUsingPublicAddress (test/controller/le/le_set_scan_enable_test.cc 36-). -/
example :
  let cfg0 : Config := { Config.default with publicAddress := 0 }
  agrees (initial none) [
    (cfg0, .setScanParameters .passive 0x2000 0x200 .pub .acceptAll, some .success),
    (cfg0, .setScanEnable true false, some .success)] = true := by
  decide +kernel

/-- LeSetScanEnableTest.EnableUsingRandomAddress (test/controller/le/le_set_scan_enable_test.cc 44-). -/
example :
  let cfg0 : Config := { Config.default with publicAddress := 0 }
  agrees (initial none) [
    (cfg0, .setScanParameters .passive 0x2000 0x200 .random .acceptAll, some .success),
    (cfg0, .setRandomAddress 1, some .success),
    (cfg0, .setScanEnable true false, some .success)] = true := by
  decide +kernel

/-- LeSetScanEnableTest.EnableUsingResolvableAddress (test/controller/le/le_set_scan_enable_test.cc 53-). -/
example :
  let cfg0 : Config := { Config.default with publicAddress := 0 }
  agrees (initial none) [
    (cfg0, .setScanParameters .passive 0x2000 0x200 .resolvableOrRandom .acceptAll, some .success),
    (cfg0, .setRandomAddress 1, some .success),
    (cfg0, .setScanEnable true false, some .success)] = true := by
  decide +kernel

/-- LeSetScanEnableTest.Disable (test/controller/le/le_set_scan_enable_test.cc 62-). -/
example :
  let cfg0 : Config := { Config.default with publicAddress := 0 }
  agrees (initial none) [
    (cfg0, .setScanEnable false false, some .success)] = true := by
  decide +kernel

/-- LeSetScanEnableTest.NoRandomAddress (test/controller/le/le_set_scan_enable_test.cc 66-). -/
example :
  let cfg0 : Config := { Config.default with publicAddress := 0 }
  agrees (initial none) [
    (cfg0, .setScanParameters .passive 0x2000 0x200 .random .acceptAll, some .success),
    (cfg0, .setScanEnable true false, some .invalidHciCommandParameters),
    (cfg0, .setScanParameters .passive 0x2000 0x200 .resolvableOrRandom .acceptAll, some .success),
    (cfg0, .setScanEnable true false, some .invalidHciCommandParameters)] = true := by
  decide +kernel

/-! ### le_set_scan_parameters_test.cc -/

/-- LeSetScanParametersTest.Success (test/controller/le/le_set_scan_parameters_test.cc 36-). -/
example :
  let cfg0 : Config := { Config.default with publicAddress := 0 }
  agrees (initial none) [
    (cfg0, .setScanParameters .passive 0x2000 0x200 .pub .acceptAll, some .success)] = true := by
  decide +kernel

/-- LeSetScanParametersTest.ScanningActive (test/controller/le/le_set_scan_parameters_test.cc 43-). -/
example :
  let cfg0 : Config := { Config.default with publicAddress := 0 }
  agrees (initial none) [
    (cfg0, .setScanEnable true false, some .success),
    (cfg0, .setScanParameters .passive 0x2000 0x200 .pub .acceptAll, some .commandDisallowed)] = true := by
  decide +kernel

/-- LeSetScanParametersTest.InvalidScanInterval (test/controller/le/le_set_scan_parameters_test.cc 52-). -/
example :
  let cfg0 : Config := { Config.default with publicAddress := 0 }
  agrees (initial none) [
    (cfg0, .setScanParameters .passive 0 0x200 .pub .acceptAll, some .unsupportedFeatureOrParameterValue),
    (cfg0, .setScanParameters .passive 0x4001 0x200 .pub .acceptAll, some .unsupportedFeatureOrParameterValue)] = true := by
  decide +kernel

/-- LeSetScanParametersTest.InvalidScanWindow (test/controller/le/le_set_scan_parameters_test.cc 64-). -/
example :
  let cfg0 : Config := { Config.default with publicAddress := 0 }
  agrees (initial none) [
    (cfg0, .setScanParameters .passive 0x2000 0 .pub .acceptAll, some .unsupportedFeatureOrParameterValue),
    (cfg0, .setScanParameters .passive 0x2000 0x4001 .pub .acceptAll, some .unsupportedFeatureOrParameterValue),
    (cfg0, .setScanParameters .passive 0x2000 0x2001 .pub .acceptAll, some .invalidHciCommandParameters)] = true := by
  decide +kernel

end Verif.Le.Vectors
