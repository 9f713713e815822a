import Verif.Reset.Lemmas
/-!
# C118: after Reset a controller does not know what was before

The full statement: for every part of a controller, `AsNew` with `[reset]` and without a condition on the past. What is proved of it,
and where it is false, part by part:

* The BR/EDR controller forgets with Reset and a tick; not with Reset alone, since a rejection of a connection that waits for the
  next tick is still sent. It is not as new, since a new one has no inquiry access code.
* The LE controller is as new after Reset, unless a new one has a random address.
* The filters of advertising reports are as new.
* The registers forget what was written, but for the support of channel sounding. They are not as new.
* The data path is as new after Reset and a tick; not after Reset alone, since data that is acknowledged at the next tick still is.
-/
namespace Verif.Reset

/-- After Reset and the next tick, at whatever times, the BR/EDR controller forgot everything: no connection, page, inquiry, role,
setting, mask or handle of the past shows in what follows. `_partial`: the tick is needed (`C118_reject_violated`). -/
theorem C118_classic_partial (addr n : Nat) (i : Br.Info) (t u : Nat) :
    Forgets classic (Br.Ctl.fresh addr i n) (fun x => Fair i x.2) [(t, .cmd .reset), (u, .tick)] := by
  refine forgets_of (Same addr n i) ⟨Br.fresh_inv addr i n, rfl, rfl, rfl⟩ (fun s x s' o h hf hs => ?_) (fun s s' h h' => ?_)
  · unfold classic at hs
    split at hs
    · rename_i h1
      cases hs
      exact same_step h hf h1
    · cases hs
  · have key : ∀ {s}, Same addr n i s → go classic s [(t, .cmd .reset), (u, .tick)] = some (clean addr n i) := by
      intro s h
      obtain ⟨c, out, h1, -, out', ev', h2⟩ := reset_tick h u
      have e1 : classic s (t, .cmd .reset) = some (c, 0, out, []) := by
        unfold classic
        show (match Br.reset s with | .ok st s' out ev => some (s', st, out, ev) | _ => none) = _
        rw [h1]
      have e2 : classic c (u, .tick) = some (clean addr n i, 0, out', ev') := by
        unfold classic
        show (match Br.tick c u with | .ok st s' out ev => some (s', st, out, ev) | _ => none) = _
        rw [h2]
      simp only [go, e1, e2]
    rw [key h, key h']

/-- The same for the commands about connections, their signal strengths, the LE connections they name and the pairing data. -/
theorem C118_policy_partial (addr n : Nat) (i : Br.Info) (t u : Nat) :
    Forgets policy (Pol.P.fresh (Br.Ctl.fresh addr i n)) (fun x => FairP i x.2) [(t, .host (.base .reset)), (u, .bredr .tick)] := by
  refine forgets_of (fun p => Same addr n i p.c) ⟨Br.fresh_inv addr i n, rfl, rfl, rfl⟩ (fun s x s' o h hf hs => ?_) (fun s s' h h' => ?_)
  · unfold policy at hs
    rw [Option.map_eq_some_iff] at hs
    obtain ⟨o', h1, h2⟩ := hs
    cases h2
    obtain ⟨now, a⟩ := x
    rcases policy_keeps h1 with h3 | ⟨b, st, out, ev, h3, h4⟩
    · rw [h3]; exact h
    · refine same_step h ?_ h4
      rcases h3 with rfl | ⟨c, rfl, rfl⟩
      · exact hf
      · exact hf
  · have key : ∀ {p : Pol.P}, Same addr n i p.c → go policy p [(t, .host (.base .reset)), (u, .bredr .tick)] =
        some ⟨clean addr n i, [], [], 1⟩ := by
      intro p h
      obtain ⟨c, out, h1, ha, out', ev', h2⟩ := reset_tick h u
      have hr : Pol.rssiAfter p c (.cmd .reset) = [] := by
        simp only [Pol.rssiAfter, ha]
        exact List.filter_eq_nil_iff.mpr (fun _ _ => by simp [Conn.find])
      have e1 : policy p (t, .host (.base .reset)) = some (⟨c, [], [], 1⟩, ⟨0, []⟩, out, []) := by
        have hb : Br.step p.c t (.cmd .reset) = .ok 0 c out [] := h1
        simp only [policy, Pol.pstep, Pol.command, Pol.rest, hb, hr, if_true, Option.map_some, List.map_nil]
      have e2 : policy ⟨c, [], [], 1⟩ (u, .bredr .tick) = some (⟨clean addr n i, [], [], 1⟩, ⟨0, []⟩, out', ev'.map .base) := by
        have hb : Br.step c u .tick = .ok 0 (clean addr n i) out' ev' := h2
        simp [policy, Pol.pstep, Pol.rest, hb, Pol.rssiAfter]
      simp only [go, e1, e2]
    rw [key h, key h']

/-- The LE controller forgets everything with Reset alone. -/
theorem C118_le (ah : Ll.Hash) (cfg : Le.Config) (d : Option Le.Address) :
    Forgets (le ah cfg) (Ll.initial d) (fun _ => True) [.reset] :=
  forgets_of (fun _ => True) trivial (fun _ _ _ _ _ _ _ => trivial) (fun _ _ _ _ => rfl)

/-- And it is as new, if a new one has no random address. `_partial`: the quirk `has_default_random_address`
(`C118_random_address_violated`). -/
theorem C118_le_new_partial (ah : Ll.Hash) (cfg : Le.Config) : AsNew (le ah cfg) (Ll.initial none) (fun _ => True) [.reset] :=
  asNew_of (fun _ => True) trivial (fun _ _ _ _ _ _ _ => trivial) (fun _ _ => rfl)

/-- The filters of advertising reports are as new after Reset. -/
theorem C118_filters (c : Apcf.Caps) : AsNew (filters c) .fresh (fun _ => True) [.reset] :=
  asNew_of (fun _ => True) trivial (fun _ _ _ _ _ _ _ => trivial) (fun _ _ => rfl)

/-- The registers forget everything with Reset, if the past has no command that changes the host's support of channel sounding
(bit 47). `_partial`: `C118_sounding_violated`, `C118_name_violated`. -/
theorem C118_registers_partial (c : Reg.Caps) :
    Forgets (registers c) .fresh (fun x => ∀ v, x ≠ .setLeFeature 47 v) [.reset] := by
  refine forgets_of (fun s => s.csHost = false) rfl (fun s x s' o h hf hs => ?_) (fun s t h h' => ?_)
  · have hs' : s' = (Reg.step c s x).2 := by
      unfold registers at hs
      split at hs
      · cases hs
      · rename_i h1
        cases hs
        rw [h1]
    rw [hs', registers_keeps hf, h]
  · rw [reset_registers c s, reset_registers c t]
    simp only [Reg.reset, h, h']

/-- The data path is as new after Reset and a tick. `_partial`: the tick is needed (`C118_credit_violated`). -/
theorem C118_data_partial (addr : Nat) : AsNew Flow.step (Flow.fresh addr) (fun _ => True) [.command resetBytes, .tick] := by
  refine asNew_of (fun s => s.addr = addr) rfl (fun s x s' o h _ hs => (data_keeps hs).trans h) (fun s h => ?_)
  have hp : Flow.handleCommand s resetBytes = ({ s with loopback := 0, scoFlow := false, acl := [], sco := [], le := [] }, []) := by
    have h1 : Pdl.parse Flow.hciCommand resetBytes = some (((0x0c03, ()), ()), []) := rfl
    simp only [Flow.handleCommand, h1, Flow.execute, show Flow.executed 0x0c03 = true from rfl, Bool.true_eq_false, and_false, if_true, if_false]
  simp only [go, Flow.step, hp, Flow.fresh, h]

/-! ## Pasts that are not trivial, and what shows if Reset is left out -/

/-- A device that was paged and connected, and is discoverable. -/
def busy : List (Nat × Br.Act) :=
  [(0, .cmd (.writeScanEnable true true)), (1, .packet 0xb 0xa 0 (.page 0x200404 true)), (2, .cmd (.accept 0xb false)), (3, .cmd (.writeIac [0x33, 0x00]))]

/-- A device. -/
def someInfo : Br.Info := ⟨0x123456, [0x41], [], 0, 7, 8, 9, 10, 11⟩

/-- Without the Reset the past shows, in the answer to an inquiry; with Reset and tick it does not. -/
example : later 4 (look classic (Br.Ctl.fresh 0xa someInfo 4) (busy ++ [(5, .packet 0xc 0 7 (.inquiry 0 0x33))])) =
      some [(0, [(0xc, .inqRsp 0 0x123456 0 [])], [])] ∧
    later 0 (look classic (Br.Ctl.fresh 0xa someInfo 4) ([] ++ [(5, .packet 0xc 0 7 (.inquiry 0 0x33))])) = some [(0, [], [])] ∧
    later 6 (look classic (Br.Ctl.fresh 0xa someInfo 4) (busy ++ [(4, .cmd .reset), (4, .tick)] ++ [(5, .packet 0xc 0 7 (.inquiry 0 0x33))])) =
      some [(0, [], [])] ∧ (∀ x ∈ busy, Fair someInfo x.2) := by
  refine ⟨by decide +kernel, by decide +kernel, by decide +kernel, ?_⟩
  simp [busy, Fair, Br.Named]

/-- The same for the counter of the pairing data. -/
def replies (is : List (Nat × Pol.PAct)) : Option (List Pol.Reply) :=
  (look policy (Pol.P.fresh (Br.Ctl.fresh 0xa someInfo 4)) is).map (List.map (·.1))

example : later 1 (replies [(0, .host .oob), (1, .host .oob)]) ≠ replies [(1, .host .oob)] ∧
    later 3 (replies [(0, .host .oob), (0, .host (.base .reset)), (0, .bredr .tick), (1, .host .oob)]) = replies [(1, .host .oob)] := by
  decide +kernel

/-- The same for the random address of the LE controller. -/
def scans : List Ll.Op := [.cmd (.setScanParameters .active 0x10 0x10 .random .acceptAll), .cmd (.setScanEnable true false)]

example : later 1 (look (le (fun _ _ => 0) Le.Config.default) (Ll.initial none) (.cmd (.setRandomAddress 0xC00000000001) :: scans)) =
      some [⟨some .success, []⟩, ⟨some .success, []⟩] ∧
    later 2 (look (le (fun _ _ => 0) Le.Config.default) (Ll.initial none) (.cmd (.setRandomAddress 0xC00000000001) :: .reset :: scans)) =
      some [⟨some .success, []⟩, ⟨some .invalidHciCommandParameters, []⟩] := by
  decide +kernel

/-- The same for a filter of advertising reports: it can be added again after Reset. -/
example : look (filters ⟨4, fun _ => 2⟩) .fresh [.filter .add true 1 [], .filter .add true 1 []] = some [.answer 0 3, .answer 0x12 3] ∧
    look (filters ⟨4, fun _ => 2⟩) .fresh [.filter .add true 1 [], .reset, .filter .add true 1 []] = some [.answer 0 3, .answer 0 0, .answer 0 3] := by
  decide +kernel

/-- The same for a register. -/
example (c : Reg.Caps) : look (registers c) .fresh [.write .voiceSetting [0x77], .read .voiceSetting] =
      some [.answer 0 [], .answer 0 [0x77]] ∧
    look (registers c) .fresh [.write .voiceSetting [0x77], .reset, .read .voiceSetting] = some [.answer 0 [], .answer 0 [], .answer 0 [0x60]] := by
  exact ⟨rfl, rfl⟩

/-- The same for the links of the data path: data for a link of the past is refused. -/
example : later 1 (look Flow.step (Flow.fresh 0xa1) [.links [(5, 0xb2)] [] [], .acl [0x05, 0x20, 1, 0, 0x77]]) ≠
      look Flow.step (Flow.fresh 0xa1) [.acl [0x05, 0x20, 1, 0, 0x77]] ∧
    later 3 (look Flow.step (Flow.fresh 0xa1) [.links [(5, 0xb2)] [] [], .command resetBytes, .tick, .acl [0x05, 0x20, 1, 0, 0x77]]) =
      look Flow.step (Flow.fresh 0xa1) [.acl [0x05, 0x20, 1, 0, 0x77]] := by
  decide +kernel

/-- **C118, false in part.** A host that rejects a connection and then resets its controller has the rejection sent after the Reset,
and is told of it. -/
theorem C118_reject_violated :
    ¬Forgets classic (Br.Ctl.fresh 0xa someInfo 4) (fun x => Fair someInfo x.2) [(3, .cmd .reset)] := by
  intro h
  have h1 := h [(0, .cmd (.writeScanEnable true true)), (1, .packet 0xb 0xa 0 (.page 0x200404 true)), (2, .cmd (.reject 0xb 0x0d))] [] [(4, .tick)]
    (by simp [Fair, Br.Named]) nofun (by decide +kernel) (by decide +kernel)
  revert h1
  decide +kernel

/-- **C118, false in part.** A new controller, unlike one that was reset, does not answer a general inquiry when it is discoverable. -/
theorem C118_inquiry_violated :
    ¬AsNew classic (Br.Ctl.fresh 0xa someInfo 4) (fun x => Fair someInfo x.2) [(0, .cmd .reset), (0, .tick)] := by
  intro h
  have h1 := h [] [(1, .cmd (.writeScanEnable true true)), (2, .packet 0xc 0 7 (.inquiry 0 0x33))] (by simp) (by decide +kernel)
  revert h1
  decide +kernel

/-- **C118, false in part.** A controller with a random address of its own has none after Reset: scanning with it is refused. -/
theorem C118_random_address_violated :
    ¬AsNew (le (fun _ _ => 0) Le.Config.default) (Ll.initial (some 0xC00000000001)) (fun _ => True) [.reset] := by
  intro h
  have h1 := h [] [.cmd (.setScanParameters .active 0x10 0x10 .random .acceptAll), .cmd (.setScanEnable true false)] (by simp) (by decide +kernel)
  revert h1
  decide +kernel

/-- **C118, false in part.** The host's support of channel sounding is not forgotten. -/
theorem C118_sounding_violated (c : Reg.Caps) : ¬Forgets (registers c) .fresh (fun _ => True) [.reset] := by
  intro h
  have h1 := h [.setLeFeature 47 1] [] [.soundingAllowed] (fun _ _ => trivial) nofun nofun nofun
  revert h1
  show some [Reg.Res.answer 0 []] ≠ some [Reg.Res.answer 0x0c []]
  decide

/-- **C118, false in part.** A new controller has a name, one that was reset does not. -/
theorem C118_name_violated (c : Reg.Caps) : ¬AsNew (registers c) .fresh (fun _ => True) [.reset] := by
  intro h
  have h1 := h [] [.read .localName] nofun nofun
  injection h1 with h1
  injection h1 with h1
  injection h1 with _ h1
  revert h1
  decide +kernel

/-- **C118, false in part.** Data handed over before Reset is acknowledged after it. -/
theorem C118_credit_violated : ¬Forgets Flow.step (Flow.fresh 0xa1) (fun _ => True) [.command resetBytes] := by
  intro h
  have h1 := h [.links [(5, 0xb2)] [] [], .acl [0x05, 0x20, 1, 0, 0x77]] [] [.tick] (fun _ _ => trivial) nofun (by decide +kernel) (by decide +kernel)
  revert h1
  decide +kernel

end Verif.Reset
