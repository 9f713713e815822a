import Verif.Mask.Model

/-
C31: event masks.

The specification says, for every event, which bit of which mask the host uses to ask for
it: bit `code - 1` of the event mask for the codes below 0x40, bit `code - 0x40` of page 2
for the codes from 0x40 on, and bit `sub - 1` of the LE mask together with the LE Meta bit
for LE events. Command Complete, Command Status, Number Of Completed Packets and the vendor
event have no bit and are always sent.
-/
namespace Verif.Mask

/-- The events that no mask governs. -/
def unmaskable : List Nat := [0x0e, 0x0f, 0x13, 0xff]

/-- The host has asked for the event. -/
def wanted (m : Masks) : Event → Bool
  | .hci code =>
    if code ∈ unmaskable then true
    else if code < 0x40 then m.mask.getLsbD (code - 1)
    else m.page2.getLsbD (code - 0x40)
  | .le sub => m.mask.getLsbD 61 && m.le.getLsbD (sub - 1)

theorem and_bit (m : BitVec 64) (k : Nat) (hk : k < 64) :
    (m &&& (1#64 <<< k) != 0#64) = m.getLsbD k := by
  rw [Bool.eq_iff_iff, bne_iff_ne]
  constructor
  · intro h
    cases hb : m.getLsbD k with
    | true => rfl
    | false =>
      refine absurd ?_ h
      apply BitVec.eq_of_getLsbD_eq
      intro i hi
      simp only [BitVec.getLsbD_and, BitVec.getLsbD_shiftLeft, BitVec.getLsbD_one, BitVec.getLsbD_zero]
      by_cases e : i = k
      · subst e; simp [hb]
      · have : ¬ (i - k = 0 ∧ ¬ i < k) := by omega
        by_cases h1 : i < k <;> simp [h1] <;> omega
  · intro h h0
    have := congrArg (fun v => BitVec.getLsbD v k) h0
    simp only [BitVec.getLsbD_and, BitVec.getLsbD_shiftLeft, h, hk] at this
    simp at this

theorem bit_some {c : Nat} (h1 : 1 ≤ c) (h2 : c ≤ 64) : bit c = some (1#64 <<< (c - 1)) := by
  unfold bit
  rw [if_neg (by omega), if_neg (by omega)]

/-- C31: for every mask and every event code of the first page, the test the controllers use
reads the bit of the event. -/
theorem C31_event (m : Masks) (code : Nat) (h1 : 1 ≤ code) (h2 : code < 0x40) :
    isEventUnmasked m code = some (m.mask.getLsbD (code - 1)) := by
  unfold isEventUnmasked
  rw [if_pos (by omega), bit_some h1 (by omega), Option.map_some, and_bit _ _ (by omega)]

example : isEventUnmasked { mask := 0x10#64 } 5 = some true := by decide
example : isEventUnmasked { mask := 0xffffffffffffffef#64 } 5 = some false := by decide

/-- C31: for every mask and every LE subevent code, the test reads the LE Meta bit and the
bit of the event. -/
theorem C31_le_event (m : Masks) (sub : Nat) (h1 : 1 ≤ sub) (h2 : sub ≤ 64) :
    isLeEventUnmasked m sub = some (m.mask.getLsbD 61 && m.le.getLsbD (sub - 1)) := by
  unfold isLeEventUnmasked
  rw [bit_some h1 h2, Option.bind_some, C31_event m leMetaEvent (by decide) (by decide),
    Option.map_some, and_bit _ _ (by omega)]
  rfl

example : isLeEventUnmasked { mask := 0x2000000000000000#64, le := 0x800#64 } 0x0c = some true := by
  decide
example : isLeEventUnmasked { le := 0x800#64 } 0x0c = some false := by decide

/-- C31: the two halves of the controller always hold the same masks, and these are the ones
of the last command since the last reset, or the defaults: nothing else changes them. -/
theorem C31_commands (ops : List Op) :
    (run {} ops).le.mask = (ops.foldl (fun m o => match o with
        | .setEventMask v => v | .reset => 0x00001fffffffffff#64 | _ => m) 0x00001fffffffffff#64) ∧
    (run {} ops).brEdr.mask = (run {} ops).le.mask ∧
    (run {} ops).le.page2 = (ops.foldl (fun m o => match o with
        | .setEventMaskPage2 v => v | .reset => 0#64 | _ => m) 0#64) ∧
    (run {} ops).brEdr.page2 = (run {} ops).le.page2 ∧
    (run {} ops).le.le = (ops.foldl (fun m o => match o with
        | .leSetEventMask v => v | .reset => 0x1f#64 | _ => m) 0x1f#64) := by
  have gen : ∀ (ops : List Op) (s : State), s.brEdr.mask = s.le.mask → s.brEdr.page2 = s.le.page2 →
      (run s ops).le.mask = (ops.foldl (fun m o => match o with
        | .setEventMask v => v | .reset => 0x00001fffffffffff#64 | _ => m) s.le.mask) ∧
      (run s ops).brEdr.mask = (run s ops).le.mask ∧
      (run s ops).le.page2 = (ops.foldl (fun m o => match o with
        | .setEventMaskPage2 v => v | .reset => 0#64 | _ => m) s.le.page2) ∧
      (run s ops).brEdr.page2 = (run s ops).le.page2 ∧
      (run s ops).le.le = (ops.foldl (fun m o => match o with
        | .leSetEventMask v => v | .reset => 0x1f#64 | _ => m) s.le.le) := by
    intro ops
    induction ops with
    | nil => intro s h1 h2; exact ⟨rfl, h1, rfl, h2, rfl⟩
    | cons o ops ih =>
      intro s h1 h2
      cases o <;> exact ih _ (by simp [step, h1]) (by simp [step, h2])
  exact gen ops {} rfl rfl

example : (run {} [.setEventMask 5#64, .leSetEventMask 7#64, .reset, .setEventMaskPage2 3#64]) =
    { le := { page2 := 3#64 }, brEdr := { page2 := 3#64 } } := by decide

/-- The place tests the bit of the event it sends (or the event has no bit). -/
def honours (s : Site) : Bool :=
  match s.event, s.guard with
  | .hci c, .event c' => c == c'
  | .le c, .le c' => c == c'
  | .hci c, .none => unmaskable.contains c
  | _, _ => false

/-- The places that honour the masks, and the others. -/
def goodSites : List Site := sites.filter honours
def badSites : List Site := sites.filter fun s => !honours s

/-- A good place either has no bit, or tests the bit of its own event. -/
theorem good_shape : ∀ s ∈ goodSites,
    (∃ c, s.event = .hci c ∧ s.guard = .event c ∧ 1 ≤ c ∧ c < 0x40 ∧ c ∉ unmaskable) ∨
    (∃ c, s.event = .le c ∧ s.guard = .le c ∧ 1 ≤ c ∧ c ≤ 64) ∨
    (∃ c, s.event = .hci c ∧ s.guard = .none ∧ c ∈ unmaskable) := by
  have key : ∀ s ∈ goodSites, (match s.event, s.guard with
      | .hci c, .event c' => c == c' && decide (1 ≤ c) && decide (c < 0x40) && !(unmaskable.contains c)
      | .le c, .le c' => c == c' && decide (1 ≤ c) && decide (c ≤ 64)
      | .hci c, .none => unmaskable.contains c
      | _, _ => false) = true := by decide +kernel
  intro s hs
  have := key s hs
  split at this
  · rename_i c c' e1 e2
    simp only [Bool.and_eq_true, beq_iff_eq, decide_eq_true_eq, Bool.not_eq_true'] at this
    obtain ⟨⟨⟨rfl, h1⟩, h2⟩, h3⟩ := this
    exact .inl ⟨c, e1, e2, h1, h2, by simpa using h3⟩
  · rename_i c c' e1 e2
    simp only [Bool.and_eq_true, beq_iff_eq, decide_eq_true_eq] at this
    obtain ⟨⟨rfl, h1⟩, h2⟩ := this
    exact .inr (.inl ⟨c, e1, e2, h1, h2⟩)
  · rename_i c e1 e2
    exact .inr (.inr ⟨c, e1, e2, by simpa using this⟩)
  · exact absurd this nofun

/-- C31, partial: at every place outside `badSites` (listed by `C31_unchecked_violated`) the
event is sent exactly when the host has asked for it, for all masks. -/
theorem C31_sites_partial (m : Masks) (s : Site) (hs : s ∈ goodSites) :
    send m s = some (if wanted m s.event then [s.event] else []) := by
  rcases good_shape s hs with ⟨c, e1, e2, h1, h2, h3⟩ | ⟨c, e1, e2, h1, h2⟩ | ⟨c, e1, e2, h⟩
  · simp only [send, test, e1, e2, wanted, if_neg h3, if_pos h2, C31_event m c h1 h2, Option.map_some]
  · simp only [send, test, e1, e2, wanted, C31_le_event m c h1 h2, Option.map_some]
  · simp only [send, test, e1, e2, wanted, if_pos h, Option.map_some, if_true]

/-- 82 places are good, among them the disconnection and the advertising reports. -/
example : goodSites.length = 82 ∧
    (⟨"le_controller.cc:6362", .hci 0x05, .event 0x05⟩ : Site) ∈ goodSites ∧
    (⟨"le_controller.cc:4954", .le 0x0d, .le 0x0d⟩ : Site) ∈ goodSites := by decide +kernel

/-- C31: two masks that differ only in bits of other events lead to the same result. -/
theorem C31_one_bit (m m' : Masks) (s : Site) (hs : s ∈ goodSites)
    (h : wanted m s.event = wanted m' s.event) : send m s = send m' s := by
  rw [C31_sites_partial m s hs, C31_sites_partial m' s hs, h]

/-- C31: the events of first-page codes have distinct bits, so clearing the bit of one leaves
every other one wanted. -/
theorem C31_clear_one (m : Masks) (c d : Nat) (hc : 1 ≤ c) (hc' : c < 0x40) (hd : 1 ≤ d)
    (hd' : d < 0x40) :
    isEventUnmasked { m with mask := m.mask &&& ~~~(1#64 <<< (c - 1)) } d =
      if c = d then some false else isEventUnmasked m d := by
  rw [C31_event _ d hd hd', C31_event _ d hd hd']
  simp only [BitVec.getLsbD_and, BitVec.getLsbD_not, BitVec.getLsbD_shiftLeft, BitVec.getLsbD_one]
  by_cases e : c = d
  · subst e; simp
  · rw [if_neg e]
    have h64 : d - 1 < 64 := by omega
    by_cases hl : d - 1 < c - 1
    · simp [hl, h64]
    · have : ¬ (d - 1 - (c - 1) = 0) := by omega
      simp [hl, h64, this]

/-- C31: exactly one of the two connection complete events, the enhanced one if both are
wanted. -/
theorem C31_connection_complete (m : Masks) :
    connectionComplete m = some (if wanted m (.le 0x0a) then [.le 0x0a]
      else if wanted m (.le 0x01) then [.le 0x01] else []) := by
  unfold connectionComplete
  rw [show isLeEventUnmasked m 0x0a = some (wanted m (.le 0x0a)) from C31_le_event m _ (by decide) (by decide),
    show isLeEventUnmasked m 0x01 = some (wanted m (.le 0x01)) from C31_le_event m _ (by decide) (by decide)]
  cases wanted m (.le 0x0a) <;> rfl

example : connectionComplete { mask := 0x2000000000000000#64, le := 0x201#64 } = some [.le 0x0a] := by
  decide

/-- C31: these 57 places do not honour the masks. They are the Long Term Key Request and the
remote LE features (only the LE Meta bit is tested), the transmit power report, the
synchronous connection events, page timeouts, extended inquiry results, the loopback and
hardware error events, the P-256 public key, and everything the Rust link manager and
isochronous manager send. Each sends its event under some masks that do not ask for it. -/
theorem C31_unchecked_violated :
    badSites.map (·.at_) = [
      "le_controller.cc:1948", "le_controller.cc:5917", "le_controller.cc:5977",
      "bredr_controller.cc:554", "bredr_controller.cc:587", "bredr_controller.cc:1770",
      "bredr_controller.cc:1818", "bredr_controller.cc:1856", "bredr_controller.cc:1860",
      "bredr_controller.cc:1872", "bredr_controller.cc:1877", "bredr_controller.cc:2232",
      "dual_mode_controller.cc:226", "dual_mode_controller.cc:237", "dual_mode_controller.cc:2421",
      "dual_mode_controller.cc:3498", "dual_mode_controller.cc:3503"] ++
      (lmpEncryptionSites ++ lmpPairingSites ++ lmpAuthenticationSites ++ lmpLegacySites ++
        isoSites).map (·.at_) ∧
    ∀ s ∈ badSites, ∃ m, wanted m s.event = false ∧ send m s = some [s.event] := by
  refine ⟨by decide +kernel, ?_⟩
  have key : ∀ s ∈ badSites,
      wanted { mask := 0x2000000000000000#64, le := 0#64 } s.event = false ∧
      send { mask := 0x2000000000000000#64, le := 0#64 } s = some [s.event] := by decide +kernel
  intro s hs
  exact ⟨_, key s hs⟩

/-- C31: the events these places send, in the same order. -/
theorem C31_unchecked_events_violated : badSites.map (·.event) =
    [.le 33, .le 5, .le 4, .hci 44, .hci 44, .hci 47, .hci 4, .hci 3, .hci 44, .hci 3, .hci 44, .hci 3, .hci 25, .hci 16,
    .le 8, .hci 3, .hci 3, .hci 8, .hci 8, .hci 51, .hci 52, .hci 53, .hci 49, .hci 54, .hci 50, .hci 59, .hci 54, .hci 54,
    .hci 54, .hci 24, .hci 50, .hci 49, .hci 54, .hci 59, .hci 54, .hci 54, .hci 54, .hci 54, .hci 24, .hci 23, .hci 6, .hci
    23, .hci 22, .hci 24, .hci 22, .hci 24, .hci 5, .le 25, .le 25, .hci 5, .le 26, .le 25, .le 25, .le 25, .hci 5, .le 27,
    .le 28] := by decide +kernel

/-- C31: on the second page the test reads the bit of the previous code. The event
Encryption Change version 2 (0x59, bit 25) is governed by bit 24. -/
theorem C31_page_2_violated :
    (∀ (m : Masks) (code : Nat), 0x40 < code → code ≤ 0x80 →
      isEventUnmasked m code = some (m.page2.getLsbD (code - 0x41))) ∧
    (∃ m, wanted m (.hci 0x59) = true ∧ wanted m (.hci 0x08) = false ∧
      encryptionChange m = some []) ∧
    (∃ m, wanted m (.hci 0x59) = false ∧ encryptionChange m = some [.hci 0x59]) := by
  refine ⟨?_, ⟨{ mask := 0#64, page2 := 0x2000000#64 }, by decide⟩, ⟨{ page2 := 0x1000000#64 }, by decide⟩⟩
  intro m code h1 h2
  unfold isEventUnmasked
  rw [if_neg (by omega), bit_some (by omega) (by omega), Option.map_some, and_bit _ _ (by omega),
    show code - 64 - 1 = code - 0x41 from by omega]

end Verif.Mask
