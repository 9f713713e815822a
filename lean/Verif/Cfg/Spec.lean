/-!
# What the specification asks of features and commands

Vol 2, Part C, 3.3 (the feature masks) and 3.5 (feature requirements); Vol 4, Part E, 3 (which commands a
controller shall, may and shall not support). The specification itself is not part of the sources. The texts of
the requirements C1 to C221 and which command has which requirement are those quoted in the comments and the
table of the sources; the formulas are written from the texts. Features are numbered as in the specification:
bit 0 of octet 0 is number 0, bit 0 of octet 1 number 8.

Of the emulated controller the sources say (controller_properties.cc 760-779) that it transmits and receives,
supports all states and roles and Inquiry, cannot change its sleep clock accuracy, and supports neither test mode,
nor data block based flow control, nor truncated page.
-/
namespace Verif.Cfg

/-! ## Features of the link manager -/

/-- Whether feature `n` of page `page` is defined by the specification with the number `version` (`LMP_Version`:
3 is 2.0, 4 is 2.1, 5 is 3.0, 6 is 4.0, 7 is 4.1, 9 is 5.0). The versions before 1.2 are not published any more. -/
def defined (version page n : Nat) : Bool :=
  if page = 0 then
    if n = 8 then version < 9  -- park state, removed in 5.0
    else if n ∈ [25, 26, 39, 40, 45, 46, 47] then 3 ≤ version  -- enhanced data rate
    else if n ∈ [41, 42, 48, 51, 52, 53, 54, 56, 57] then 4 ≤ version  -- sniff subrating, simple pairing, …
    else if n = 58 then 5 ≤ version  -- enhanced power control
    else if n ∈ [37, 38, 49] then 6 ≤ version  -- low energy
    else n ∉ [24, 34, 50, 55, 59, 60, 61, 62] && n < 64
  else if page = 2 then
    if n = 10 then 9 ≤ version  -- slot availability mask
    else n ∈ [0, 1, 2, 3, 4, 5, 6, 8, 9, 11] && 7 ≤ version
  else false

/-- Table 3.9: if a feature is supported, then of each of the lists at least one. -/
def table39 : List ((Nat × Nat) × List (List (Nat × Nat))) := [
  ((0, 5), [[(0, 3)]]),  -- role switch: slot offset
  ((0, 12), [[(0, 11)]]),  -- HV2: SCO
  ((0, 13), [[(0, 11)]]),  -- HV3: SCO
  ((0, 14), [[(0, 11), (0, 31)]]),  -- µ-law: SCO or eSCO
  ((0, 15), [[(0, 11), (0, 31)]]),  -- A-law: SCO or eSCO
  ((0, 16), [[(0, 11), (0, 31)]]),  -- CVSD: SCO or eSCO
  ((0, 19), [[(0, 11), (0, 31)]]),  -- transparent: SCO or eSCO
  ((0, 26), [[(0, 25)]]),  -- EDR ACL 3 Mb/s: 2 Mb/s
  ((0, 32), [[(0, 31)]]),  -- EV4: eSCO
  ((0, 33), [[(0, 31)]]),  -- EV5: eSCO
  ((0, 36), [[(0, 35)]]),  -- AFH classification peripheral: AFH capable peripheral
  ((0, 39), [[(0, 25)]]),  -- 3-slot EDR ACL: EDR ACL 2 Mb/s
  ((0, 40), [[(0, 25)]]),  -- 5-slot EDR ACL: EDR ACL 2 Mb/s
  ((0, 44), [[(0, 43)]]),  -- AFH classification central: AFH capable central
  ((0, 45), [[(0, 31)]]),  -- EDR eSCO 2 Mb/s: eSCO
  ((0, 46), [[(0, 45)]]),  -- EDR eSCO 3 Mb/s: 2 Mb/s
  ((0, 47), [[(0, 45)]]),  -- 3-slot EDR eSCO: EDR eSCO 2 Mb/s
  ((0, 48), [[(0, 30)]]),  -- extended inquiry response: RSSI with inquiry results
  ((0, 49), [[(0, 38)]]),  -- simultaneous LE and BR/EDR: LE
  ((0, 53), [[(0, 11), (0, 31)]]),  -- erroneous data reporting: SCO or eSCO
  ((0, 58), [[(0, 9)], [(0, 18)]]),  -- enhanced power control: power control requests and power control
  ((2, 0), [[(2, 2)]]),  -- peripheral broadcast transmitter: synchronization train
  ((2, 1), [[(2, 3)]]),  -- peripheral broadcast receiver: synchronization scan
  ((2, 5), [[(0, 28), (0, 29)]]),  -- generalized interlaced scan: interlaced inquiry scan or page scan
  ((2, 6), [[(0, 35)], [(0, 43)], [(2, 2)], [(2, 3)]]),  -- coarse clock adjustment: AFH capable, train and scan
  ((2, 8), [[(0, 42)], [(2, 9)]])]  -- secure connections: pause encryption and ping

/-- Vol 2, Part C, 3.3 and 3.5.1 (devices supporting BR/EDR), for a controller that reports the feature `n` of page
`page` if `f page n`. -/
structure Consistent (version : Nat) (f : Nat → Nat → Bool) : Prop where
  /-- Reserved bits are not set. -/
  reserved : ∀ page ∈ [0, 2], ∀ n, f page n = true → defined version page n = true
  /-- Table 3.5, mandatory: encryption, secure simple pairing, encapsulated PDU. -/
  mandatory : ∀ n ∈ [2, 51, 52], f 0 n = true
  /-- Table 3.6, forbidden: BR/EDR not supported. -/
  forbidden : f 0 37 = false
  /-- Table 3.7, together or not at all: sniff mode and sniff subrating. -/
  together : f 0 7 = f 0 41
  /-- Table 3.8, not both: broadcast encryption and coarse clock adjustment. -/
  exclusive : ¬(f 0 23 = true ∧ f 2 6 = true)
  /-- Table 3.9. -/
  needed : ∀ r ∈ table39, f r.1.1 r.1.2 = true → ∀ l ∈ r.2, ∃ x ∈ l, f x.1 x.2 = true

/-! ## Commands -/

/-- What a controller reports: its LE features, its features of the link manager by page, its commands by ten times
the octet plus the bit; whether it can initiate channel sounding; and its transports. -/
structure View where
  ll : Nat → Bool
  lmp : Nat → Nat → Bool
  command : Nat → Bool
  initiator : Bool
  br : Bool
  le : Bool

/-- Conditions on what a controller reports. -/
inductive Formula
  | yes
  | no
  | ll (n : Nat)
  | lmp (page n : Nat)
  | command (n : Nat)
  | initiator
  | and (a b : Formula)
  | or (a b : Formula)
  deriving DecidableEq, Repr

/-- When a condition holds. -/
def Formula.holds (v : View) : Formula → Bool
  | .yes => true
  | .no => false
  | .ll n => v.ll n
  | .lmp page n => v.lmp page n
  | .command n => v.command n
  | .initiator => v.initiator
  | .and a b => a.holds v && b.holds v
  | .or a b => a.holds v || b.holds v

infixl:30 " ⊔ " => Formula.or
infixl:35 " ⊓ " => Formula.and

/-- A requirement: mandatory if `must`, otherwise optional if `may`, otherwise excluded. -/
structure Rule where
  must : Formula
  may : Formula

/-- The names of the requirements: mandatory, optional, excluded, and the conditional ones. -/
inductive Name
  | m
  | o
  | x
  | c (n : Nat)
  deriving DecidableEq, Repr

/-- Mandatory if so, otherwise excluded. -/
def mustIf (f : Formula) : Rule := ⟨f, .no⟩

/-- Mandatory if so, otherwise optional. -/
def mustOrMay (f : Formula) : Rule := ⟨f, .yes⟩

/-- Optional if so, otherwise excluded. -/
def mayIf (f : Formula) : Rule := ⟨.no, f⟩

/-- The requirements. -/
def rule : Name → Rule
  | .m => mustIf .yes
  | .o => mayIf .yes
  | .x => mustIf .no
  -- Mandatory if the LE Controller supports transmitting packets, otherwise excluded.
  | .c 1 => mustIf .yes
  -- Mandatory if the LE Controller supports receiving packets, otherwise excluded.
  | .c 2 => mustIf .yes
  -- Mandatory if the LE Controller supports Connection State, otherwise excluded.
  | .c 3 => mustIf .yes
  -- Mandatory if LE Feature (LE Encryption) is supported, otherwise excluded.
  | .c 4 => mustIf (.ll 0)
  -- Mandatory if LE Feature (Connection Parameters Request procedure) is supported, otherwise excluded.
  | .c 6 => mustIf (.ll 1)
  -- Mandatory if LE Feature (LE Encryption) and LE Feature (LE Ping) are supported, otherwise excluded.
  | .c 7 => mustIf (.ll 0 ⊓ .ll 4)
  -- Mandatory if LE Feature (LE Data Packet Length Extension) is supported, otherwise optional.
  | .c 8 => mustOrMay (.ll 5)
  -- Mandatory if LE Feature (LL Privacy) is supported, otherwise excluded.
  | .c 9 => mustIf (.ll 6)
  -- Optional if LE Feature (LL Privacy) is supported, otherwise excluded.
  | .c 10 => mayIf (.ll 6)
  -- Mandatory if LE Feature (LE 2M PHY) or LE Feature (LE Coded PHY) is supported, otherwise optional.
  | .c 11 => mustOrMay (.ll 8 ⊔ .ll 11)
  -- Mandatory if LE Feature (LE 2M PHY) or LE Feature (LE Coded PHY) or LE Feature (Stable Modulation
  -- Index - Transmitter) is supported, otherwise optional if the LE Controller supports transmitting
  -- packets, otherwise excluded.
  | .c 12 => mustOrMay (.ll 8 ⊔ .ll 11 ⊔ .ll 9)
  -- Mandatory if LE Feature (LE 2M PHY) or LE Feature (LE Coded PHY) or LE Feature (Stable Modulation
  -- Index - Receiver) is supported, otherwise optional if the LE Controller supports receiving packets,
  -- otherwise excluded.
  | .c 13 => mustOrMay (.ll 8 ⊔ .ll 11 ⊔ .ll 10)
  -- Mandatory if LE Controller supports transmitting scannable advertisements, otherwise excluded.
  | .c 15 => mustIf .yes
  -- Mandatory if LE Feature (Periodic Advertising) is supported and the LE Controller supports both
  -- Scanning State and Synchronization State, otherwise excluded.
  | .c 16 => mustIf (.ll 13)
  -- Mandatory if LE Feature (Extended Advertising) is supported and the LE Controller supports
  -- Advertising State, otherwise excluded.
  | .c 17 => mustIf (.ll 12)
  -- Mandatory if LE Feature (Periodic Advertising) is supported and the LE Controller supports
  -- Advertising State, otherwise excluded.
  | .c 18 => mustIf (.ll 13)
  -- Mandatory if LE Feature (Extended Advertising) is supported and the LE Controller supports Scanning
  -- State, otherwise excluded.
  | .c 19 => mustIf (.ll 12)
  -- Mandatory if LE Feature (Extended Advertising) is supported and the LE Controller supports
  -- Initiating State, otherwise excluded.
  | .c 20 => mustIf (.ll 12)
  -- Mandatory if LE Feature (Periodic Advertising) is supported and the LE Controller supports
  -- Synchronization State, otherwise excluded.
  | .c 21 => mustIf (.ll 13)
  -- Mandatory if the LE Controller supports sending Transmit Power in advertisements or if LE Feature
  -- (LE Power Control Request) is supported, otherwise optional.
  | .c 22 => mustOrMay .yes
  -- Mandatory if LE Feature (Connection CTE Request) is supported, otherwise excluded.
  | .c 25 => mustIf (.ll 17)
  -- Mandatory if LE Feature (Connection CTE Response) is supported, otherwise excluded.
  | .c 26 => mustIf (.ll 18)
  -- Mandatory if LE Feature (Connectionless CTE Transmitter) is supported, otherwise excluded.
  | .c 27 => mustIf (.ll 19)
  -- Mandatory if LE Feature (Connectionless CTE Receiver) is supported, otherwise excluded.
  | .c 28 => mustIf (.ll 20)
  -- Mandatory if LE Feature (Connection CTE Response) or LE Feature (Connectionless CTE Transmitter) is
  -- supported, otherwise optional if the LE Controller supports transmitting packets, otherwise
  -- excluded.
  | .c 29 => mustOrMay (.ll 18 ⊔ .ll 19)
  -- Mandatory if LE Feature (Connection CTE Request) or LE Feature (Connectionless CTE Receiver) is
  -- supported, otherwise optional if the LE Controller supports receiving packets, otherwise excluded.
  | .c 30 => mustOrMay (.ll 17 ⊔ .ll 20)
  -- Mandatory if LE Feature (Connection CTE Request) or LE Feature (Connection CTE Response) or LE
  -- Feature (Connectionless CTE Transmitter) or LE Feature (Connectionless CTE Receiver) is supported,
  -- otherwise excluded.
  | .c 31 => mustIf (.ll 17 ⊔ .ll 18 ⊔ .ll 19 ⊔ .ll 20)
  -- Mandatory if LE Feature (Periodic Advertising Sync Transfer – Recipient) is supported, otherwise
  -- optional if LE Feature (Periodic Advertising) is supported and the LE Controller supports
  -- Synchronization State, otherwise excluded.
  | .c 32 => ⟨.ll 25, .ll 13⟩
  -- Mandatory if LE Feature (Periodic Advertising Sync Transfer – Sender) is supported and the LE
  -- Controller supports Scanning State, otherwise excluded.
  | .c 33 => mustIf (.ll 24)
  -- Mandatory if LE Feature (Periodic Advertising Sync Transfer – Sender) is supported and the LE
  -- Controller supports Advertising State, otherwise excluded.
  | .c 34 => mustIf (.ll 24)
  -- Mandatory if LE Feature (Periodic Advertising Sync Transfer – Recipient) is supported, otherwise
  -- excluded.
  | .c 35 => mustIf (.ll 25)
  -- Mandatory if the LE Controller supports Central role or supports both Peripheral role and LE Feature
  -- (Channel Classification), otherwise optional if LE Feature (Extended Advertising) is supported and
  -- the LE Controller supports Advertising State or if LE Feature (Isochronous Broadcaster) is
  -- supported, otherwise excluded.
  | .c 36 => mustIf .yes
  -- Mandatory if the LE Controller can change its sleep clock accuracy, otherwise excluded.
  | .c 37 => mustIf .no
  -- Mandatory if LE Feature (Connected Isochronous Stream - Central) is supported, otherwise excluded.
  | .c 39 => mustIf (.ll 28)
  -- Mandatory if LE Feature (Connected Isochronous Stream - Peripheral) is supported, otherwise
  -- excluded.
  | .c 40 => mustIf (.ll 29)
  -- Mandatory if LE Feature (Isochronous Broadcaster) is supported, otherwise excluded.
  | .c 41 => mustIf (.ll 30)
  -- Mandatory if LE Feature (Synchronized Receiver role) is supported, otherwise excluded.
  | .c 42 => mustIf (.ll 31)
  -- Mandatory if LE Feature (Sleep Clock Accuracy Updates) and either LE Feature (Connected Isochronous
  -- Stream - Central) or LE Feature (Connected Isochronous Stream - Peripheral) are supported, otherwise
  -- optional if LE Feature (Sleep Clock Accuracy Updates) is supported, otherwise excluded.
  | .c 44 => ⟨.ll 26 ⊓ (.ll 28 ⊔ .ll 29), .ll 26⟩
  -- Mandatory if LE Feature (Connected Isochronous Stream - Central), or LE Feature (Connected
  -- Isochronous Stream - Peripheral), or LE Feature (Isochronous Broadcaster) is supported, otherwise
  -- excluded.
  | .c 45 => mustIf (.ll 28 ⊔ .ll 29 ⊔ .ll 30)
  -- Mandatory if LE Feature (Connected Isochronous Stream - Central), or LE Feature (Connected
  -- Isochronous Stream - Peripheral), or LE Feature (Synchronized Receiver role) is supported, otherwise
  -- excluded.
  | .c 46 => mustIf (.ll 28 ⊔ .ll 29 ⊔ .ll 31)
  -- Mandatory if LE Feature (Connected Isochronous Stream - Central), or LE Feature (Connected
  -- Isochronous Stream - Peripheral), or LE Feature (Isochronous Broadcaster), or LE Feature
  -- (Synchronized Receiver role) is supported, otherwise excluded.
  | .c 47 => mustIf (.ll 28 ⊔ .ll 29 ⊔ .ll 30 ⊔ .ll 31)
  -- Mandatory if LE Feature (Connected Isochronous Stream - Central) or LE Feature (Connected
  -- Isochronous Stream - Peripheral) or LE Feature (Connection Subrating) is supported, otherwise
  -- optional.
  | .c 49 => mustOrMay (.ll 28 ⊔ .ll 29 ⊔ .ll 37)
  -- Optional if LE Feature (Connected Isochronous Stream - Central), or LE Feature (Connected
  -- Isochronous Stream - Peripheral), or LE Feature (Synchronized Receiver role) is supported, otherwise
  -- excluded.
  | .c 50 => mayIf (.ll 28 ⊔ .ll 29 ⊔ .ll 31)
  -- Mandatory if LE Feature (LE Power Control Request) is supported, otherwise excluded.
  | .c 51 => mustIf (.ll 33)
  -- Mandatory if LE Feature (LE Path Loss Monitoring) is supported, otherwise excluded.
  | .c 52 => mustIf (.ll 35)
  -- Mandatory if LE Feature (LE Power Control Request) is supported, otherwise optional if the LE
  -- Controller supports transmitting packets, otherwise excluded.
  | .c 53 => mustOrMay (.ll 33)
  -- Mandatory if LE Feature (Connected Isochronous Stream - Central), or LE Feature (Connected
  -- Isochronous Stream - Peripheral), or LE Feature (Isochronous Broadcaster) is supported, otherwise
  -- optional if the LE Controller supports Connection State, otherwise excluded.
  | .c 55 => mustOrMay (.ll 28 ⊔ .ll 29 ⊔ .ll 30)
  -- Mandatory if LE Feature (Connection Subrating) is supported, otherwise excluded.
  | .c 57 => mustIf (.ll 37)
  -- Mandatory if LE Feature (Channel Classification) is supported, otherwise excluded.
  | .c 58 => mustIf (.ll 39)
  -- Mandatory if the LE Controller supports Central role, otherwise excluded.
  | .c 59 => mustIf .yes
  -- Mandatory if the LE Controller supports Central role and LE Feature (LE Encryption), otherwise
  -- excluded.
  | .c 60 => mustIf (.ll 0)
  -- Mandatory if the LE Controller supports Peripheral role and LE Feature (LE Encryption), otherwise
  -- excluded.
  | .c 61 => mustIf (.ll 0)
  -- Mandatory if the LE Controller supports Central role or supports both Peripheral role and LE Feature
  -- (Connection Parameters Request Procedure), otherwise excluded.
  | .c 62 => mustIf .yes
  -- Optional if the Controller supports transmitting packets, otherwise excluded.
  | .c 64 => mayIf .yes
  -- Mandatory if LE Feature (Channel Sounding) is supported, otherwise excluded.
  | .c 75 => mustIf (.ll 46)
  -- Mandatory if LE Feature (Channel Sounding) and initiator role are supported, otherwise excluded.
  | .c 76 => mustIf (.ll 46 ⊓ .initiator)
  -- Mandatory if the LE Create Connection or LE Extended Create Connection command is supported,
  -- otherwise excluded.
  | .c 94 => mustIf (.command 264 ⊔ .command 377)
  -- Optional if the LE Controller supports Connection State, otherwise excluded.
  | .c 96 => mayIf .yes
  -- Mandatory if Advertising State is supported, otherwise excluded.
  | .c 97 => mustIf .yes
  -- Mandatory if Scanning State is supported, otherwise excluded.
  | .c 98 => mustIf .yes
  -- Mandatory if LE Generate DHKey command [v2] is supported, otherwise optional.
  | .c 99 => mustOrMay (.command 412)
  -- Mandatory if the Periodic Inquiry Mode command is supported, otherwise excluded.
  | .c 103 => mustIf (.command 2)
  -- Mandatory if the Remote Name Request command is supported, otherwise excluded.
  | .c 106 => mustIf (.command 23)
  -- Mandatory if the Set Controller To Host Flow Control command is supported, otherwise excluded.
  | .c 107 => mustIf (.command 105)
  -- Mandatory if the Set MWS_PATTERN Configuration command is supported, otherwise optional.
  | .c 108 => mustOrMay (.command 304)
  -- Mandatory if the Set MWS Signaling command is supported, otherwise excluded.
  | .c 109 => mustIf (.command 300)
  -- Mandatory if the Write Authentication Enable command is supported, otherwise excluded.
  | .c 111 => mustIf (.command 85)
  -- Mandatory if the Write Default Erroneous Data Reporting command is supported, otherwise excluded.
  | .c 112 => mustIf (.command 183)
  -- Mandatory if the Write Extended Inquiry Length command is supported, otherwise excluded.
  | .c 113 => mustIf (.command 333)
  -- Mandatory if the Write Extended Page Timeout command is supported, otherwise excluded.
  | .c 114 => mustIf (.command 331)
  -- Mandatory if the Write Inquiry Mode command is supported, otherwise excluded.
  | .c 115 => mustIf (.command 127)
  -- Mandatory if the Write LE Host Support command is supported, otherwise excluded.
  | .c 116 => mustIf (.command 246)
  -- Mandatory if the Write Link Supervision Timeout command is supported, otherwise excluded.
  | .c 117 => mustIf (.command 111)
  -- Mandatory if the Write Num Broadcast Retransmissions command is supported, otherwise excluded.
  | .c 118 => mustIf (.command 97)
  -- Mandatory if the Write Page Scan Type command is supported, otherwise excluded.
  | .c 119 => mustIf (.command 131)
  -- Mandatory if the Write PIN Type command is supported, otherwise excluded.
  | .c 120 => mustIf (.command 63)
  -- Mandatory if the Write Stored Link Key command is supported, otherwise excluded.
  | .c 121 => mustIf (.command 66)
  -- Mandatory if the Write Synchronous Flow Control Enable command is supported, otherwise excluded.
  | .c 122 => mustIf (.command 104)
  -- Mandatory if BR/EDR test mode is supported, otherwise excluded.
  | .c 123 => mustIf .no
  -- Mandatory if Data block based flow control is supported, otherwise excluded.
  | .c 124 => mustIf .no
  -- Mandatory if Inquiry Scan is supported, otherwise excluded.
  | .c 125 => mustIf .yes
  -- Mandatory if Inquiry is supported, otherwise excluded.
  | .c 127 => mustIf .yes
  -- Optional if Inquiry is supported, otherwise excluded.
  | .c 128 => mayIf .yes
  -- Mandatory if Truncated page state is supported, otherwise excluded.
  | .c 129 => mustIf .no
  -- Mandatory if HV2, HV3, or multi-slot or EDR ACL packets are supported, otherwise excluded.
  | .c 133 => mustIf (.lmp 0 12 ⊔ .lmp 0 13 ⊔ .lmp 0 0 ⊔ .lmp 0 1 ⊔ .lmp 0 25 ⊔ .lmp 0 26 ⊔ .lmp 0 39 ⊔ .lmp 0 40)
  -- Mandatory if SCO or eSCO is supported, otherwise excluded.
  | .c 134 => mustIf (.lmp 0 11 ⊔ .lmp 0 31)
  -- Optional if SCO or eSCO is supported, otherwise excluded.
  | .c 135 => mayIf (.lmp 0 11 ⊔ .lmp 0 31)
  -- Optional if Slot Availability Mask is supported, otherwise excluded.
  | .c 136 => mayIf (.lmp 2 10)
  -- Mandatory if Secure Connections (Controller) is supported, otherwise optional if eSCO is supported,
  -- otherwise excluded.
  | .c 138 => ⟨.lmp 2 8, .lmp 0 31⟩
  -- Mandatory if the Controller is AFH capable in either role, otherwise excluded.
  | .c 139 => mustIf (.lmp 0 43 ⊔ .lmp 0 35)
  -- Mandatory if the Controller supports AFH classification in either role or is an AFH capable Central,
  -- otherwise excluded.
  | .c 140 => mustIf (.lmp 0 44 ⊔ .lmp 0 36 ⊔ .lmp 0 43)
  -- Mandatory if Role Switch, Hold mode, or Sniff mode is supported, otherwise excluded.
  | .c 141 => mustIf (.lmp 0 5 ⊔ .lmp 0 6 ⊔ .lmp 0 7)
  -- Mandatory if Secure Connections (Host) is supported, otherwise excluded.
  | .c 142 => mustIf .yes
  -- Mandatory if Secure Connections (both Host and Controller) is supported, otherwise excluded.
  | .c 143 => mustIf (.lmp 2 8)
  -- Mandatory if any event in event mask page 2 is supported, otherwise optional.
  | .c 145 => mustOrMay .yes
  -- Mandatory if the Extended Inquiry Result event or the IO Capability Request event is supported,
  -- otherwise optional if Inquiry is supported, otherwise excluded.
  | .c 146 => mustIf .yes
  -- Optional if any of the Connection Complete, Connection Request, Extended Inquiry Result, Inquiry
  -- Result with RSSI, IO Capability Request, or Synchronous Connection Complete events is supported,
  -- otherwise excluded.
  | .c 148 => mayIf .yes
  -- Mandatory if Secure Connections (Controller) and Ping are supported, otherwise excluded.
  | .c 151 => mustIf (.lmp 2 8 ⊓ .lmp 2 9)
  -- Mandatory if Power Control is supported, otherwise optional.
  | .c 152 => mustOrMay (.lmp 0 18)
  -- Mandatory if LE supported in the Controller, otherwise optional.
  | .c 153 => mustOrMay (.lmp 0 38)
  -- Mandatory if Interlaced Page Scan is supported, otherwise optional.
  | .c 154 => mustOrMay (.lmp 0 29)
  -- Mandatory if the Write Authenticated Payload Timeout command is supported, otherwise excluded.
  | .c 155 => mustIf (.command 325)
  -- Mandatory if the Read Local Supported Codecs command [v2] is supported, otherwise excluded.
  | .c 156 => mustIf (.command 452)
  -- Mandatory if the Read Local Supported Codecs command [v2] is supported, otherwise optional.
  | .c 157 => mustOrMay (.command 452)
  -- Mandatory if Connectionless Peripheral Broadcast - Transmitter is supported, otherwise excluded.
  | .c 201 => mustIf (.lmp 2 0)
  -- Mandatory if Connectionless Peripheral Broadcast - Receiver is supported, otherwise excluded.
  | .c 202 => mustIf (.lmp 2 1)
  -- Mandatory if Synchronization Train is supported, otherwise excluded.
  | .c 203 => mustIf (.lmp 2 2)
  -- Mandatory if Synchronization Scan is supported, otherwise excluded.
  | .c 204 => mustIf (.lmp 2 3)
  -- Mandatory if Extended Inquiry Response is supported, otherwise excluded.
  | .c 205 => mustIf (.lmp 0 48)
  -- Mandatory if Role Switch is supported, otherwise excluded.
  | .c 212 => mustIf (.lmp 0 5)
  -- Mandatory if Hold mode is supported, otherwise excluded.
  | .c 213 => mustIf (.lmp 0 6)
  -- Mandatory if Sniff mode is supported, otherwise excluded.
  | .c 214 => mustIf (.lmp 0 7)
  -- Mandatory if Broadcast Encryption is supported, otherwise excluded.
  | .c 215 => mustIf (.lmp 0 23)
  -- Mandatory if BR/EDR Enhanced Power Control is supported, otherwise excluded.
  | .c 217 => mustIf (.lmp 0 58)
  -- Mandatory if Secure Connections (Controller) is supported, otherwise excluded.
  | .c 218 => mustIf (.lmp 2 8)
  -- Mandatory if LMP Extended Features mask is supported, otherwise excluded.
  | .c 220 => mustIf (.lmp 0 63)
  -- Mandatory if Sniff subrating is supported, otherwise excluded.
  | .c 221 => mustIf (.lmp 0 41)
  | .c _ => mustIf .no

/-- Table 3.1 of Vol 4, Part E, the column of BR/EDR, by requirement: the commands, as ten times the octet plus the
bit of the Supported Commands parameter. -/
def tableBr : List (Name × List Nat) := [
  (.m, [4, 5, 7, 10, 11, 12, 13, 14, 15, 20, 25, 46, 55, 56, 57, 61, 70, 71, 72, 73, 74, 75, 76, 77, 80, 81,
    90, 91, 94, 95, 143, 145, 147, 151, 152, 153, 172, 175, 176, 177, 187, 190, 191, 192, 193, 194, 195, 196,
    197, 202, 203, 204]),
  (.o, [23, 27, 30, 47, 63, 66, 85, 97, 105, 111, 154, 155, 157, 296, 300, 302, 305, 331, 413, 451, 452, 457]),
  (.x, [122, 123, 166, 167, 205, 206, 207, 233, 234, 241, 247, 250, 251, 252, 254, 255, 256, 257, 260, 261,
    262, 263, 264, 265, 266, 267, 270, 271, 272, 273, 274, 275, 276, 277, 280, 281, 282, 283, 284, 285, 286,
    290, 291, 292, 334, 335, 336, 337, 340, 342, 343, 344, 345, 346, 347, 350, 351, 352, 353, 354, 355, 356,
    357, 360, 361, 362, 363, 364, 365, 366, 367, 370, 371, 372, 373, 374, 375, 376, 377, 380, 381, 382, 383,
    384, 385, 386, 387, 390, 391, 392, 393, 394, 395, 396, 397, 400, 401, 402, 403, 404, 405, 406, 407, 410,
    411, 412, 414, 415, 416, 417, 420, 421, 422, 423, 424, 425, 426, 427, 430, 431, 432, 433, 434, 435, 436,
    437, 440, 441, 442, 443, 444, 445, 446, 447, 450, 456, 460, 461]),
  (.c 103, [3]),
  (.c 106, [24]),
  (.c 107, [106, 107]),
  (.c 108, [297]),
  (.c 109, [301, 303]),
  (.c 111, [84]),
  (.c 112, [182]),
  (.c 113, [332]),
  (.c 114, [330]),
  (.c 115, [126]),
  (.c 116, [245]),
  (.c 117, [110]),
  (.c 118, [96]),
  (.c 119, [130]),
  (.c 120, [62]),
  (.c 121, [65, 67]),
  (.c 122, [103]),
  (.c 123, [160, 161, 162]),
  (.c 124, [230, 231, 232]),
  (.c 125, [82, 83, 112, 113, 114, 124, 125, 180]),
  (.c 127, [0, 1, 181]),
  (.c 128, [2, 333]),
  (.c 129, [306, 307]),
  (.c 133, [16]),
  (.c 134, [31, 92, 93, 163, 164, 165]),
  (.c 135, [104, 183, 293, 294]),
  (.c 136, [304]),
  (.c 138, [327]),
  (.c 139, [156]),
  (.c 140, [121, 132, 133]),
  (.c 141, [51, 52, 53, 54]),
  (.c 142, [326]),
  (.c 143, [321]),
  (.c 145, [222]),
  (.c 146, [127]),
  (.c 148, [60]),
  (.c 151, [325]),
  (.c 152, [102]),
  (.c 153, [246]),
  (.c 154, [131]),
  (.c 155, [324]),
  (.c 156, [453, 454, 455]),
  (.c 157, [295]),
  (.c 201, [310, 314, 315, 316]),
  (.c 202, [311]),
  (.c 203, [312, 317, 320]),
  (.c 204, [313]),
  (.c 205, [170, 171]),
  (.c 212, [50]),
  (.c 213, [41, 100, 101]),
  (.c 214, [42, 43]),
  (.c 215, [22]),
  (.c 217, [240]),
  (.c 218, [322, 323]),
  (.c 220, [26, 146]),
  (.c 221, [174])]

/-- Table 3.1 of Vol 4, Part E, the column of LE, by requirement. -/
def tableLe : List (Name × List Nat) := [
  (.m, [56, 57, 143, 145, 151, 250, 252, 266, 267, 270, 271, 283, 286]),
  (.o, [246, 296, 297, 300, 302, 412, 451, 452]),
  (.x, [0, 1, 2, 3, 4, 7, 10, 11, 12, 13, 14, 15, 16, 20, 22, 23, 24, 25, 26, 30, 31, 41, 42, 43, 46, 47, 50,
    51, 52, 53, 54, 55, 60, 61, 62, 63, 65, 66, 67, 70, 71, 74, 75, 76, 77, 80, 81, 82, 83, 84, 85, 90, 91, 92,
    93, 94, 95, 96, 97, 100, 101, 103, 104, 110, 111, 112, 113, 114, 121, 124, 125, 126, 127, 130, 131, 146,
    147, 152, 153, 154, 156, 157, 160, 161, 162, 163, 164, 165, 170, 171, 172, 174, 175, 176, 177, 180, 181,
    182, 183, 187, 190, 191, 192, 193, 194, 195, 196, 197, 202, 203, 204, 230, 231, 232, 240, 293, 294, 295,
    304, 305, 306, 307, 310, 311, 312, 313, 314, 315, 316, 317, 320, 321, 322, 323, 326, 327, 330, 331, 332,
    333, 413, 457]),
  (.c 1, [254, 285]),
  (.c 2, [284]),
  (.c 3, [5, 27, 102, 155, 251, 274, 275]),
  (.c 4, [276, 277]),
  (.c 6, [334, 335]),
  (.c 7, [325]),
  (.c 8, [336, 337, 340, 353]),
  (.c 9, [343, 344, 345, 346, 351, 352, 392]),
  (.c 10, [347, 350, 456]),
  (.c 11, [354, 355, 356]),
  (.c 12, [360]),
  (.c 13, [357]),
  (.c 15, [260]),
  (.c 16, [380, 381]),
  (.c 17, [361, 362, 363, 364, 365, 366, 367, 370, 371]),
  (.c 18, [372, 373, 374]),
  (.c 19, [375, 376]),
  (.c 20, [377]),
  (.c 21, [382, 383, 384, 385, 386]),
  (.c 22, [390, 391]),
  (.c 25, [400, 402]),
  (.c 26, [401, 403]),
  (.c 27, [395, 396]),
  (.c 28, [397]),
  (.c 29, [394]),
  (.c 30, [393]),
  (.c 31, [404]),
  (.c 32, [405]),
  (.c 33, [406]),
  (.c 34, [407]),
  (.c 35, [410, 411]),
  (.c 36, [273]),
  (.c 37, [414]),
  (.c 39, [417, 420, 421, 422]),
  (.c 40, [72, 73, 423, 424]),
  (.c 41, [425, 426, 427]),
  (.c 42, [430, 431]),
  (.c 44, [432]),
  (.c 45, [416, 435]),
  (.c 46, [436, 437]),
  (.c 47, [433, 434, 440]),
  (.c 49, [441]),
  (.c 50, [442]),
  (.c 51, [443, 444, 447]),
  (.c 52, [445, 446]),
  (.c 53, [450]),
  (.c 55, [415]),
  (.c 57, [460, 461]),
  (.c 58, [132, 133]),
  (.c 59, [264]),
  (.c 60, [280]),
  (.c 61, [281, 282]),
  (.c 62, [272]),
  (.c 64, [387]),
  (.c 75, [122, 166, 167, 205, 206, 207, 233, 234, 241, 247, 290, 291, 292]),
  (.c 76, [123]),
  (.c 94, [265]),
  (.c 96, [105]),
  (.c 97, [255, 256, 257, 261]),
  (.c 98, [262, 263]),
  (.c 99, [342]),
  (.c 107, [106, 107]),
  (.c 109, [301, 303]),
  (.c 116, [245]),
  (.c 145, [222]),
  (.c 155, [324]),
  (.c 156, [453, 454, 455])]

/-- The requirement of a command in a column. -/
def lookup (table : List (Name × List Nat)) (i : Nat) : Option Name :=
  (table.find? (fun r => r.2.contains i)).map (·.1)

/-- What the controller shall do about a command with the requirements `b` for BR/EDR and `l` for LE: support it if
it is mandatory for a transport the controller has; otherwise it may support it if it is optional for one;
otherwise it shall not support it. -/
def agrees (v : View) (b l : Rule) (i : Nat) : Bool :=
  let must := v.br && b.must.holds v || v.le && l.must.holds v
  let may := v.br && b.may.holds v || v.le && l.may.holds v
  if v.command i then must || may else !must

/-! ## Configuration -/

/-- What a configuration says of the LE feature `n`: LL privacy 6, LE 2M PHY 8, LE coded PHY 11, extended advertising
12, periodic advertising 13, connected isochronous streams central and peripheral 28 and 29, power control request
33, connection subrating 37, channel sounding 46. The arguments are the fields of `ControllerFeatures` in the order
of configuration.proto. -/
def said (extended periodic privacy phy2m coded iso subrating sounding power : Option Bool) (n : Nat) : Option Bool :=
  match n with
  | 6 => privacy
  | 8 => phy2m
  | 11 => coded
  | 12 => extended
  | 13 => periodic
  | 28 => iso
  | 29 => iso
  | 33 => power
  | 37 => subrating
  | 46 => sounding
  | _ => none

end Verif.Cfg
