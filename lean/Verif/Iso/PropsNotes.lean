import Verif.Iso.NotesLemmas
/-!
# C115: what the host knows of its connected isochronous streams

The specification is in `Verif/Iso/SpecNotes.lean`: the host's notes, made from its own commands, the events and the loss of links.
The theorems say that the controller acts by the notes: how it answers a command for a stream, and over which link it does what the
command says, follows from them. They are for histories whose steps are `Sane`.
-/
namespace Verif.Iso
open Verif.Le

/-- HCI Disconnect. A stream that is established is ended over its link, and the host is told at once; a stream that is not is
refused, as unknown (2) or disallowed (0x0C). Of a stream the host only asked for, it depends on how far the request got. -/
theorem C115_disconnect {tr : List (Op × List Out)} {s : State} (ht : TraceOf Sane {} tr s) (env : Env) (h reason : Nat) :
    ∃ s' outs, step env s (.hci (.disconnect h reason)) = .ok (s', outs) ∧
      match notesOf tr h with
      | .established acl => ∃ i j, outs = [.llcp acl (.terminateInd i j reason), .event (.disconnectStatus 0),
          .event (.disconnectionComplete h 0x16)]
      | .asked acl => (∃ i j, outs = [.llcp acl (.terminateInd i j reason), .event (.disconnectStatus 0),
          .event (.disconnectionComplete h 0x16)]) ∨ outs = [.event (.disconnectStatus 0x0C)]
      | .offered _ => outs = [.event (.disconnectStatus 0x0C)]
      | .idle => outs = [.event (.disconnectStatus 2)] ∨ outs = [.event (.disconnectStatus 0x0C)] := by
  obtain ⟨hi, hq, hn⟩ := noted_trace ht
  rw [hn]
  simp only [step, runCmd, disconnect]
  cases hp : phaseOf s h with
  | idle =>
    rcases phaseOf_idle hp with hf | ⟨c, hf, hst⟩
    · rw [hf]; exact ⟨_, _, rfl, .inl rfl⟩
    · rw [hf]; simp only [hst, ne_eq, reduceCtorEq, not_false_eq_true, and_self, if_true]; exact ⟨_, _, rfl, .inr rfl⟩
  | asked acl =>
    rcases phaseOf_asked hp hi hq with ⟨r, -, -, -, c, hf, hst⟩ | ⟨c, hf, hst | hst, ha⟩
    · rw [hf]; simp only [hst, ne_eq, reduceCtorEq, not_false_eq_true, and_self, if_true]; exact ⟨_, _, rfl, .inr rfl⟩
    · rw [hf]; simp only [hst, ne_eq, reduceCtorEq, not_false_eq_true, not_true_eq_false, and_false, if_false, ha]
      exact ⟨_, _, rfl, .inl ⟨_, _, rfl⟩⟩
    · rw [hf]; simp only [hst, ne_eq, reduceCtorEq, not_false_eq_true, and_self, if_true]; exact ⟨_, _, rfl, .inr rfl⟩
  | offered acl =>
    obtain ⟨c, hf, hst, ha⟩ := phaseOf_offered hp hi
    rw [hf]; simp only [hst, ne_eq, reduceCtorEq, not_false_eq_true, and_self, if_true]; exact ⟨_, _, rfl, rfl⟩
  | established acl =>
    obtain ⟨c, hf, hst, ha⟩ := phaseOf_established hp hi
    rw [hf]; simp only [hst, ne_eq, not_true_eq_false, false_and, if_false, ha]
    exact ⟨_, _, rfl, _, _, rfl⟩

/-- LE Accept CIS Request is accepted for the streams the peer asked for, and the answer goes over the link the request came from.
For any other it is refused. -/
theorem C115_accept {tr : List (Op × List Out)} {s : State} (ht : TraceOf Sane {} tr s) (env : Env) (h : Nat) :
    ∃ s' outs, step env s (.hci (.acceptCis h)) = .ok (s', outs) ∧
      match notesOf tr h with
      | .offered acl => outs = [.llcp acl .cisRsp, .event (.acceptCisStatus 0)]
      | _ => outs = [.event (.acceptCisStatus 2)] ∨ outs = [.event (.acceptCisStatus 0x0C)] := by
  obtain ⟨hi, hq, hn⟩ := noted_trace ht
  rw [hn]
  simp only [step, runCmd, acceptCis]
  cases hf : findCis s.cises h with
  | none =>
    refine ⟨_, _, rfl, ?_⟩
    cases hp : phaseOf s h with
    | offered acl => obtain ⟨c, hf', -⟩ := phaseOf_offered hp hi; rw [hf] at hf'; cases hf'
    | _ => exact .inl rfl
  | some c =>
    cases hp : phaseOf s h with
    | offered acl =>
      obtain ⟨c', hf', hst, ha⟩ := phaseOf_offered hp hi
      rw [hf] at hf'
      cases hf'
      have hrole := offers_trace ht.trace c (findCis_some hf).1 hst
      simp only [hrole, hst, ha, ne_eq, not_true_eq_false, reduceCtorEq, if_false]
      exact ⟨_, _, rfl, rfl⟩
    | _ =>
      have hst : c.state ≠ .pendingAccept := by
        intro hst
        have := phaseOf_cis hq hf (by rw [hst]; exact nofun)
        rw [hp] at this
        simp [Cis.phase, hst] at this
      simp only
      split
      · exact ⟨_, _, rfl, .inr rfl⟩
      · exact ⟨_, _, rfl, .inr rfl⟩

/-- LE Reject CIS Request, in the same way. The reason goes to the peer, and 0x13 in the place of 0. -/
theorem C115_reject {tr : List (Op × List Out)} {s : State} (ht : TraceOf Sane {} tr s) (env : Env) (h reason : Nat) :
    ∃ s' outs, step env s (.hci (.rejectCis h reason)) = .ok (s', outs) ∧
      match notesOf tr h with
      | .offered acl => outs = [.llcp acl (.rejectExtInd 0x1F (if reason = 0 then 0x13 else reason)), .event (.rejectCisComplete 0 h)]
      | _ => outs = [.event (.rejectCisComplete 2 h)] ∨ outs = [.event (.rejectCisComplete 0x0C h)] := by
  obtain ⟨hi, hq, hn⟩ := noted_trace ht
  rw [hn]
  simp only [step, runCmd, rejectCis]
  cases hf : findCis s.cises h with
  | none =>
    refine ⟨_, _, rfl, ?_⟩
    cases hp : phaseOf s h with
    | offered acl => obtain ⟨c, hf', -⟩ := phaseOf_offered hp hi; rw [hf] at hf'; cases hf'
    | _ => exact .inl rfl
  | some c =>
    cases hp : phaseOf s h with
    | offered acl =>
      obtain ⟨c', hf', hst, ha⟩ := phaseOf_offered hp hi
      rw [hf] at hf'
      cases hf'
      have hrole := offers_trace ht.trace c (findCis_some hf).1 hst
      simp only [hrole, hst, ha, ne_eq, not_true_eq_false, reduceCtorEq, if_false]
      exact ⟨_, _, rfl, rfl⟩
    | _ =>
      have hst : c.state ≠ .pendingAccept := by
        intro hst
        have := phaseOf_cis hq hf (by rw [hst]; exact nofun)
        rw [hp] at this
        simp [Cis.phase, hst] at this
      simp only
      split
      · exact ⟨_, _, rfl, .inr rfl⟩
      · exact ⟨_, _, rfl, .inr rfl⟩

/-- LE Create CIS is refused and changes nothing, or it is accepted and every stream of the list is one the host has a handle for but
no stream, no request and no offer; and no stream is listed twice. -/
theorem C115_create {tr : List (Op × List Out)} {s s' : State} {outs : List Out} (ht : TraceOf Sane {} tr s) {env : Env}
    {cs : List (Nat × Nat)} (h : step env s (.hci (.createCis cs)) = .ok (s', outs)) :
    (s' = s ∧ ∃ e ∈ [2, 0x0B, 0x0C, 0x12], outs = [.event (.createCisStatus e)]) ∨
    (.event (.createCisStatus 0) ∈ outs ∧ (∀ p ∈ cs, notesOf tr p.1 = .idle) ∧ (cs.map (·.1)).Nodup) := by
  obtain ⟨hi, hq, hn⟩ := noted_trace ht
  rw [hn]
  simp only [step, runCmd, createCis] at h
  split at h
  · rename_i e he
    obtain ⟨rfl, rfl⟩ := answer_ok h
    refine .inl ⟨rfl, e, ?_, rfl⟩
    exact checkCreates_codes he
  rename_i rs hrs
  split at h
  · obtain ⟨rfl, rfl⟩ := answer_ok h; exact .inl ⟨rfl, 0x0C, by simp, rfl⟩
  rename_i hempty
  have hempty : s.requests = [] := Decidable.byContradiction hempty
  split at h
  · obtain ⟨rfl, rfl⟩ := answer_ok h; exact .inl ⟨rfl, 0x0C, by simp, rfl⟩
  split at h
  · cases h
  split at h
  · cases h
  cases h
  obtain ⟨new, hnew, h1, h2, h3⟩ := checkCreates_ok hrs
  rw [List.nil_append] at hnew
  subst hnew
  refine .inr ⟨by simp [success], ?_, ?_⟩
  · rw [← h1]
    intro p hp
    obtain ⟨r, hr, rfl⟩ := List.mem_map.1 hp
    obtain ⟨-, c, hc, h4, h5, -⟩ := h2 r hr
    have := findCis_of_mem hi hc
    rw [h4] at this
    unfold phaseOf
    rw [hempty]
    simp [this, Cis.phase, h5]
  · rw [← h1, List.map_map]
    exact h3 List.nodup_nil

/-- A stream that is established is not created again: a command for it alone, over a link on which the host is the central, is
refused because the connection already exists. -/
theorem C115_exists {tr : List (Op × List Out)} {s : State} (ht : TraceOf Sane {} tr s) {h a acl : Nat}
    (he : notesOf tr h = .established a) (hl : mapFind s.acls acl = some .central) (env : Env) :
    step env s (.hci (.createCis [(h, acl)])) = .ok (s, [.event (.createCisStatus 0x0B)]) := by
  obtain ⟨hi, hq, hn⟩ := noted_trace ht
  rw [hn] at he
  obtain ⟨c, hf, hst, -⟩ := phaseOf_established he hi
  simp [step, runCmd, createCis, checkCreates, checkCreate, hl, hf, hst, connectionAlreadyExists, answer]

/-- What the host is told. A CIS Established event is the answer to a request the host made for that stream. A CIS Request comes with
a handle for which the host knows no stream. A Disconnection Complete event is for a stream that is established or that the host asked
for. What is missing: the event because the peer ends the stream, for which this is false (`C115_told_violated`). -/
theorem C115_told_partial {tr : List (Op × List Out)} {s s' : State} {env : Env} {op : Op} {outs : List Out}
    (ht : TraceOf Sane {} tr s) (hs : Sane s op) (h : step env s op = .ok (s', outs)) :
    (∀ e, .event (.cisEstablished e) ∈ outs → ∃ a, notesOf tr e.handle = .asked a) ∧
    (∀ acl k i j, .event (.cisRequest acl k i j) ∈ outs → notesOf tr k = .idle) ∧
    (∀ k r, .event (.disconnectionComplete k r) ∈ outs → (∀ acl i j e, op ≠ .llcp acl (.terminateInd i j e)) →
      ∃ a, notesOf tr k = .asked a ∨ notesOf tr k = .established a) := by
  obtain ⟨hi, hq, hn⟩ := noted_trace ht
  rw [hn]
  obtain ⟨-, h1, h2, h3⟩ := noted_step hi hq hs h
  exact ⟨h1, h2, h3⟩

/-- The loss of a link. The host is told of all the streams on the link and of no others: the request for a stream it asked for fails,
a stream that is established is disconnected. Afterwards it has no notes about the link. -/
theorem C115_lost {tr : List (Op × List Out)} {s s' : State} {env : Env} {acl reason : Nat} {outs : List Out}
    (ht : TraceOf Sane {} tr s) (hr : reason ≠ 0) (h : step env s (.removeLink acl reason) = .ok (s', outs)) (k : Nat) :
    ((∃ e, .event (.cisEstablished e) ∈ outs ∧ e.handle = k) ↔ notesOf tr k = .asked acl) ∧
    ((∃ r, .event (.disconnectionComplete k r) ∈ outs) ↔ notesOf tr k = .established acl) ∧
    (∀ e, .event (.cisEstablished e) ∈ outs → e.status ≠ 0) ∧
    notesOf (tr ++ [(.removeLink acl reason, outs)]) k ≠ .asked acl ∧
    notesOf (tr ++ [(.removeLink acl reason, outs)]) k ≠ .offered acl ∧
    notesOf (tr ++ [(.removeLink acl reason, outs)]) k ≠ .established acl := by
  obtain ⟨hi, hq, hn⟩ := noted_trace ht
  have hs : Sane s (.removeLink acl reason) := ⟨trivial, fun a ha => hr (by cases ha; rfl)⟩
  obtain ⟨hi', hq', hn'⟩ := noted_trace (.snoc ht hs h)
  rw [hn, hn']
  simp only [step, removeLink] at h
  split at h
  · cases h
  have he : (if reason ∈ errorCodes then reason else remoteUserTerminated) ≠ 0 := by
    split
    · exact hr
    · exact nofun
  generalize (if reason ∈ errorCodes then reason else remoteUserTerminated) = e at h he
  cases h
  have hacl : ∀ c ∈ (removeAcl s acl e).1.cises, c.acl ≠ some acl := by
    intro c hc
    obtain ⟨d, -, rfl⟩ := List.mem_map.1 hc
    split
    · exact nofun
    · assumption
  refine ⟨⟨?_, ?_⟩, ⟨?_, ?_⟩, ?_, ?_, ?_, ?_⟩
  · rintro ⟨e', he', rfl⟩
    rcases remove_kind he' with ⟨c, hc, hl⟩ | ⟨r, hr, ha, hre⟩
    · obtain ⟨ha, ⟨-, hx⟩ | ⟨hs, hx⟩⟩ := lostEvent_some hl
      · cases hx
      · cases hx
        have hf := findCis_of_mem hi hc
        show phaseOf s c.handle = _
        rcases hs with hs | hs
        · rw [phaseOf_cis hq hf (by rw [hs]; exact nofun)]; simp [Cis.phase, hs, ha]
        · rw [phaseOf_cis hq hf (by rw [hs]; exact nofun)]; simp [Cis.phase, hs, ha]
    · cases hre
      show phaseOf s r.handle = _
      unfold phaseOf
      cases h1 : s.requests.find? (fun y => y.handle = r.handle) with
      | none => rw [List.find?_eq_none] at h1; exact absurd (by simp) (h1 r hr)
      | some y =>
        have hy := List.mem_of_find?_eq_some h1
        have hyh : y.handle = r.handle := by simpa using List.find?_some h1
        rw [inj_of_nodup_map hq.nodup hy hr hyh]
        simp [ha]
  · intro hp
    rcases phaseOf_asked hp hi hq with ⟨r, hr, hh, ha, -⟩ | ⟨c, hf, hst, ha⟩
    · exact ⟨.failed e r.handle, List.mem_append.2 (.inr (List.mem_map.2 ⟨r, List.mem_filter.2 ⟨hr, by simpa using ha⟩, rfl⟩)), hh⟩
    · obtain ⟨hm, hh⟩ := findCis_some hf
      refine ⟨.failed e c.handle, List.mem_append.2 (.inl (List.mem_filterMap.2 ⟨c, hm, ?_⟩)), hh⟩
      rcases hst with hst | hst <;> simp [lostEvent, ha, hst]
  · rintro ⟨r, he'⟩
    rcases remove_kind he' with ⟨c, hc, hl⟩ | ⟨r, hr, ha, hre⟩
    · obtain ⟨ha, ⟨hs, hx⟩ | ⟨hs, hx⟩⟩ := lostEvent_some hl
      · cases hx
        have hf := findCis_of_mem hi hc
        rw [phaseOf_cis hq hf (by rw [hs]; exact nofun)]; simp [Cis.phase, hs, ha]
      · cases hx
    · cases hre
  · intro hp
    obtain ⟨c, hf, hst, ha⟩ := phaseOf_established hp hi
    obtain ⟨hm, rfl⟩ := findCis_some hf
    refine ⟨e, List.mem_append.2 (.inl (List.mem_filterMap.2 ⟨c, hm, ?_⟩))⟩
    simp [lostEvent, ha, hst]
  · intro e' he'
    rcases remove_kind he' with ⟨c, hc, hl⟩ | ⟨r, hr, ha, hre⟩
    · obtain ⟨ha, ⟨hs, hx⟩ | ⟨hs, hx⟩⟩ := lostEvent_some hl
      · cases hx
      · cases hx; exact he
    · cases hre; exact he
  · intro hp
    rcases phaseOf_asked hp hi' hq' with ⟨r, hr, hh, ha, -⟩ | ⟨c, hf, hst, ha⟩
    · have := (List.mem_filter.1 hr).2
      rw [ha] at this
      simp at this
    · exact hacl c (findCis_some hf).1 ha
  · intro hp
    obtain ⟨c, hf, hst, ha⟩ := phaseOf_offered hp hi'
    exact hacl c (findCis_some hf).1 ha
  · intro hp
    obtain ⟨c, hf, hst, ha⟩ := phaseOf_established hp hi'
    exact hacl c (findCis_some hf).1 ha

/-! ### Cases -/

/-- Two links; a stream is created and established over the first, another is being created, and the peer of the second link asks for
one. -/
theorem exampleNotes : ∃ tr s, TraceOf Sane {} tr s ∧ notesOf tr 0xE00 = .established 0x10 ∧ notesOf tr 0xE01 = .asked 0x10 ∧
    notesOf tr 0xE02 = .offered 0x11 ∧ notesOf tr 0xE03 = .idle ∧ mapFind s.acls 0x10 = some .central := by
  refine ⟨_, _, .snoc (env := fullEnv) (op := .llcp 0x11 (.cisReq exampleReq))
    (.snoc (env := fullEnv) (op := .llcp 0x10 .cisRsp)
      (.snoc (env := fullEnv) (op := .hci (.createCis [(0xE00, 0x10), (0xE01, 0x10)]))
        (.snoc (env := fullEnv) (op := .hci exampleCig)
          (.snoc (env := fullEnv) (op := .addLink 0x11 .peripheral)
            (.snoc (env := fullEnv) (op := .addLink 0x10 .central) (.nil _) ⟨trivial, nofun⟩ rfl)
            ⟨trivial, nofun⟩ rfl)
          ⟨trivial, nofun⟩ rfl) ⟨trivial, nofun⟩ rfl) ⟨trivial, nofun⟩ rfl)
    ⟨trivial, nofun⟩ rfl, ?_⟩
  decide +kernel

/-- It meets the hypotheses of all the theorems above: the host ends the established stream, accepts the offered one and is refused a
stream it knows nothing of. -/
example : ∃ tr s, TraceOf Sane {} tr s ∧
    (∃ s' i j, step fullEnv s (.hci (.disconnect 0xE00 0x13)) = .ok (s', [.llcp 0x10 (.terminateInd i j 0x13),
      .event (.disconnectStatus 0), .event (.disconnectionComplete 0xE00 0x16)])) ∧
    (∃ s', step fullEnv s (.hci (.acceptCis 0xE02)) = .ok (s', [.llcp 0x11 .cisRsp, .event (.acceptCisStatus 0)])) ∧
    step fullEnv s (.hci (.createCis [(0xE00, 0x10)])) = .ok (s, [.event (.createCisStatus 0x0B)]) := by
  obtain ⟨tr, s, ht, h1, h2, h3, h4, h5⟩ := exampleNotes
  obtain ⟨s1, o1, e1, k1⟩ := C115_disconnect ht fullEnv 0xE00 0x13
  obtain ⟨s2, o2, e2, k2⟩ := C115_accept ht fullEnv 0xE02
  rw [h1] at k1
  rw [h3] at k2
  obtain ⟨i, j, rfl⟩ := k1
  cases k2
  exact ⟨tr, s, ht, ⟨s1, i, j, e1⟩, ⟨s2, e2⟩, C115_exists ht h1 h5 fullEnv⟩

/-- The loss of a link with two streams on it. -/
example : ∃ tr s s' outs, TraceOf Sane {} tr s ∧ step fullEnv s (.removeLink 0x10 0x08) = .ok (s', outs) ∧
    notesOf tr 0xE00 = .asked 0x10 ∧ notesOf tr 0xE01 = .asked 0x10 ∧ outs.length = 2 := by
  refine ⟨_, _, _, _, .snoc (env := fullEnv) (op := .hci (.createCis [(0xE00, 0x10), (0xE01, 0x10)]))
        (.snoc (env := fullEnv) (op := .hci exampleCig)
          (.snoc (env := fullEnv) (op := .addLink 0x10 .central) (.nil _) ⟨trivial, nofun⟩ rfl)
          ⟨trivial, nofun⟩ rfl) ⟨trivial, nofun⟩ rfl, rfl, ?_⟩
  decide +kernel

/-- A link may be lost for the reason 0, which the peer chooses: the host is then told, with the status success, that the stream it
asked for is established, and there is no stream. -/
theorem C115_reason_violated : ∃ s s' outs e, Reachable s ∧ step fullEnv s (.removeLink 0x10 0) = .ok (s', outs) ∧
    .event (.cisEstablished e) ∈ outs ∧ e.status = 0 ∧ e.handle = 0xE00 ∧
    step fullEnv s' (.hci (.disconnect 0xE00 0x13)) = .ok (s', [.event (.disconnectStatus 0x0C)]) := by
  refine ⟨stateAfter createHistory, _, _, .failed 0 0xE00, stateAfter_reachable _, rfl, ?_, rfl, rfl, rfl⟩
  decide +kernel

/-- Both ends disconnect a stream at the same time: the central's host is told twice of the end of the stream, the second time of a
stream that is idle, and the handle is then unknown although its group is still configured. -/
theorem C115_told_violated : ∃ tr s s' s'', TraceOf Sane {} tr s ∧ notesOf tr 0xE00 = .idle ∧
    step fullEnv s (.llcp 0x10 (.terminateInd 3 1 0x13)) = .ok (s', [.event (.disconnectionComplete 0xE00 0x13)]) ∧
    step fullEnv s' (.hci (.createCis [(0xE00, 0x10)])) = .ok (s'', [.event (.createCisStatus 2)]) := by
  refine ⟨_, _, _, _, .snoc (env := fullEnv) (op := .hci (.disconnect 0xE00 0x13))
    (.snoc (env := fullEnv) (op := .llcp 0x10 .cisRsp)
      (.snoc (env := fullEnv) (op := .hci (.createCis [(0xE00, 0x10)]))
        (.snoc (env := fullEnv) (op := .hci exampleCig)
          (.snoc (env := fullEnv) (op := .addLink 0x10 .central) (.nil _) ⟨trivial, nofun⟩ rfl)
          ⟨trivial, nofun⟩ rfl) ⟨trivial, nofun⟩ rfl) ⟨trivial, nofun⟩ rfl)
    ⟨trivial, nofun⟩ rfl, ?_, rfl, rfl⟩
  decide +kernel

end Verif.Iso
