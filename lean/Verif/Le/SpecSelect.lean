import Verif.Le.Step
/-!
# Legacy and extended commands: specification (C18)
-/

namespace Verif.Le

/-- The two kinds of commands of Bluetooth Core, Vol 4, Part E, 3.1.1. -/
inductive Kind where
  | legacy | extended | neutral
  deriving DecidableEq

/-- The kind of a command according to the Bluetooth specification. -/
def Cmd.kind : Cmd → Kind
  | .setAdvertisingParameters .. | .setAdvertisingData .. | .setScanResponseData ..
  | .setAdvertisingEnable .. | .setScanParameters .. | .setScanEnable ..
  | .createConnection .. => .legacy
  | .setAdvertisingSetRandomAddress .. | .setExtAdvertisingParameters ..
  | .setExtAdvertisingData .. | .setExtScanResponseData .. | .setExtAdvertisingEnable ..
  | .removeAdvertisingSet .. | .clearAdvertisingSets
  | .setPeriodicParameters .. | .setPeriodicData .. | .setPeriodicEnable ..
  | .setExtendedScanParameters .. | .setExtendedScanEnable .. | .extendedCreateConnection ..
  | .createSync .. | .createSyncCancel | .terminateSync ..
  | .addPeriodicAdvertiser .. | .removePeriodicAdvertiser .. | .clearPeriodicAdvertiser => .extended
  | _ => .neutral

/-- The extended commands that the code leaves out of the exclusion. -/
def Cmd.unchecked : Cmd → Bool
  | .setAdvertisingSetRandomAddress .. | .removeAdvertisingSet .. | .clearAdvertisingSets
  | .setPeriodicParameters .. | .setPeriodicData .. | .setPeriodicEnable ..
  | .createSync .. | .createSyncCancel | .terminateSync ..
  | .addPeriodicAdvertiser .. | .removePeriodicAdvertiser .. | .clearPeriodicAdvertiser => true
  | _ => false

/-- No operation of the list is a reset. -/
def NoReset (ops : List Op) : Prop := ∀ o ∈ ops, o ≠ .env .reset

end Verif.Le
