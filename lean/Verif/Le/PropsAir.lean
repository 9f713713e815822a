import Verif.Le.AirLemmas
/-!
# C107: what goes on air is what the host configured, when it asked for it
-/

namespace Verif.Le

/-- C107. After any operations from any start, what the controller sends at a tick is what
the host's notes foretell: for the legacy advertiser and for every advertising set the
PDU of the accepted parameters, with the address asked for and the data of C20, when it
is due and not otherwise, until advertising is disabled, ends or is turned into a
connection. Partial: a refused LE Set Extended Advertising Enable that lists several
sets changes addresses (see `C107_on_air_violated`), such runs are left out. -/
theorem C107_on_air_partial {cfg : Config} {a : Option Address} {ops : List Op} {s s' : State} {g : Notes} {d : Ghost}
    {now : Nat} {st : Option Status} {out : List AdvOut} (hu : Untorn cfg ops (initial a))
    (hr : runNotes cfg ops (initial a) (Notes.initial a) {} = some (s, g, d))
    (h : step cfg s (.env (.tick now)) = .ok s' st out) : Foretold g d now out := by
  obtain ⟨ho, ht⟩ := tied_run ops (listsOk_initial cfg a) (advsOk_nil cfg) (tied_initial a) hu hr
  exact (tied_tick ht ho (step_env h).1).2

/-- Taking notes does not change the run. -/
theorem C107_notes_follow {cfg : Config} {ops : List Op} {s s' : State} (g : Notes) (d : Ghost) (h : run cfg ops s = some s') :
    ∃ g' d', runNotes cfg ops s g d = some (s', g', d') := by
  induction ops generalizing s g d with
  | nil => cases h; exact ⟨g, d, rfl⟩
  | cons o ops ih =>
    simp only [run] at h
    split at h
    · rename_i hstep; simp only [runNotes, hstep]; exact ih _ _ h
    · cases h
    · cases h

/-- C107: in between, nothing is sent. -/
theorem C107_only_at_ticks {cfg : Config} {s s' : State} {o : Op} {st : Option Status} {out : List AdvOut}
    (h : step cfg s o = .ok s' st out) (hx : out ≠ []) : ∃ now, o = .env (.tick now) := by
  cases o with
  | cmd c => obtain ⟨e, -, -, rfl⟩ := step_cmd h; exact absurd rfl hx
  | env e =>
    obtain ⟨he, -⟩ := step_env h
    cases e
    case tick now => exact ⟨now, rfl⟩
    all_goals unfold_env he
    all_goals exact absurd rfl hx

/-- The parameters of the examples. -/
def airParams (own : OwnAddressType) (sid : Nat) : ExtParams :=
  ⟨{}, 0x20, 0x40, 7, own, .pub, 1, .allDevices, 0, .le1m, 0, .le2m, sid, false⟩

/-- A host that advertises with both advertisers' sets, in turn. -/
def airExample : List Op :=
  [.cmd (.setExtAdvertisingParameters 5 (airParams .random 3)),
   .cmd (.setAdvertisingSetRandomAddress 5 0xc0ffee),
   .cmd (.setExtAdvertisingData 5 .completeAdvertisement [1, 2, 3]),
   .cmd (.setPeriodicParameters 5 6 8),
   .cmd (.setPeriodicEnable 50 true false 5),
   .cmd (.setExtAdvertisingEnable 100 (fun _ _ => 0) true [⟨5, 0, 2⟩]),
   .env (.tick 100), .env (.tick 20099), .env (.tick 20100)]

example : Untorn Config.default airExample (initial none) :=
  ⟨fun ⟨_, _, _, _, _, h, _⟩ => (nomatch h), fun ⟨_, _, _, _, _, h, _⟩ => (nomatch h), fun ⟨_, _, _, _, _, h, _⟩ => (nomatch h),
   fun ⟨_, _, _, _, _, h, _⟩ => (nomatch h), fun ⟨_, _, _, _, _, h, _⟩ => (nomatch h), fun ⟨_, _, _, _, _, h, _⟩ => (nomatch h),
   fun ⟨_, _, _, _, _, h, _⟩ => (nomatch h), fun ⟨_, _, _, _, _, h, _⟩ => (nomatch h), fun ⟨_, _, _, _, _, h, _⟩ => (nomatch h), trivial⟩

/-- Two PDUs, one interval of 20 ms apart, were sent with the configured random address,
set id and data; at the next tick the set ends; the periodic train goes on. -/
example : ∃ s g d s' st, runNotes Config.default airExample (initial none) (Notes.initial none) {} = some (s, g, d) ∧
    step Config.default s (.env (.tick 20200)) = .ok s' st
      [.setTerminated 5 2, .periodicPdu 5 ⟨0xc0ffee, .randomDevice⟩ 3 8 []] :=
  ⟨_, _, _, _, _, rfl, rfl⟩

example : ∃ s g d s' st, runNotes Config.default (airExample.take 8) (initial none) (Notes.initial none) {} = some (s, g, d) ∧
    step Config.default s (.env (.tick 20100)) = .ok s' st
      [.extendedPdu 5 ⟨0xc0ffee, .randomDevice⟩ ⟨0, .publicDevice⟩ false false false 3 8 [1, 2, 3],
       .periodicPdu 5 ⟨0xc0ffee, .randomDevice⟩ 3 8 []] :=
  ⟨_, _, _, _, _, rfl, rfl⟩

/-- A legacy advertiser sends after the configured 20 ms, with the configured type, data
and public address. -/
example : ∃ s g d s' st, runNotes Config.default
      [.cmd (.setAdvertisingParameters ⟨0x20, 0x20, .advScanInd, .pub, .pub, 0, 7, .allDevices⟩),
       .cmd (.setAdvertisingData [9]), .cmd (.setAdvertisingEnable 1000 (fun _ _ => 0) true), .env (.tick 20999)]
      (initial none) (Notes.initial none) {} = some (s, g, d) ∧
    step Config.default s (.env (.tick 21000)) = .ok s' st
      [.legacyPdu none .advScanInd ⟨0x112233445566, .publicDevice⟩ ⟨0, .publicDevice⟩ [9]] :=
  ⟨_, _, _, _, _, rfl, rfl⟩

/-- Set 0 advertises with a generated address; then a command that lists it together with
set 1 is refused because of set 1. -/
def tornExample : List Op :=
  [.cmd (.addResolving .pub 1 2 3),
   .cmd (.setExtAdvertisingParameters 0 (airParams .resolvableOrPublic 0)),
   .cmd (.setExtAdvertisingParameters 1 (airParams .random 1)),
   .cmd (.setExtAdvertisingEnable 0 (fun _ _ => 0xaaaa) true [⟨0, 0, 0⟩]),
   .cmd (.setExtAdvertisingEnable 0 (fun _ _ => 0xbbbb) true [⟨0, 0, 0⟩, ⟨1, 0, 0⟩])]

/-- C107 fails without the restriction: the refused command has changed the address the
enabled set advertises with. -/
theorem C107_on_air_violated : ¬ ∀ (cfg : Config) (ops : List Op) (s s' : State) (g : Notes) (d : Ghost) (now : Nat)
    (st : Option Status) (out : List AdvOut), runNotes cfg ops (initial none) (Notes.initial none) {} = some (s, g, d) →
    step cfg s (.env (.tick now)) = .ok s' st out → Foretold g d now out := by
  intro h
  obtain ⟨order, -, hm, ho⟩ := h Config.default tornExample _ _ _ _ 0 _
    [AdvOut.extendedPdu 0 ⟨0xbbbb, .randomDevice⟩ ⟨0, .publicDevice⟩ false false false 0 0 []] rfl rfl
  have h0 : (0 : UInt8) ∈ order := (hm 0).2 rfl
  have hx : AdvOut.extendedPdu 0 ⟨0xaaaa, .randomDevice⟩ ⟨0, .publicDevice⟩ false false false 0 0 [] ∈
      [AdvOut.extendedPdu 0 ⟨0xbbbb, .randomDevice⟩ ⟨0, .publicDevice⟩ false false false 0 0 []] := by
    rw [ho]
    exact List.mem_append_right _ (List.mem_flatMap.2 ⟨0, h0, by decide +kernel⟩)
  revert hx
  decide +kernel

end Verif.Le
