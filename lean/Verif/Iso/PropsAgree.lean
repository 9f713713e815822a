import Verif.Iso.AgreeLemmas
import Verif.Iso.PropsCreate
/-!
# C30: what the two ends of a CIS are told

The specification is in `Verif/Iso/SpecAgree.lean`. The central and the peripheral are two link layers with their own
histories. What connects them is that the peripheral receives the LL_CIS_REQ that the central sent, and the LL_CIS_IND
that the central sends when it reports the CIS as established.
-/

namespace Verif.Iso

open Verif.Le

/-- Invariant of the central. -/
def SentInv (tr : List (Op × List Out)) (s : State) : Prop :=
  ∀ c ∈ s.cises, c.role = .central → c.state = .pendingRsp →
    ∃ p q, c.params = some p ∧ lastSent c.cigId c.cisId tr = some q ∧ Matches p q

theorem SentInv.of_from {tr : List (Op × List Out)} {s : State} (h : SentInv tr s) {c : Cis} (hf : From s.cises c)
    (hr : c.role = .central) (hst : c.state = .pendingRsp) :
    ∃ p q, c.params = some p ∧ lastSent c.cigId c.cisId tr = some q ∧ Matches p q := by
  obtain ⟨x, hx, h1, h2, h3, h4⟩ := hf
  have h4 : x.state = .pendingRsp := by
    rcases h4 with h4 | ⟨-, h4⟩
    · rw [h4, hst]
    · rw [h4] at hst; cases hst
  have e1 : x.cigId = c.cigId := congrArg (·.2.1) h1
  have e2 : x.cisId = c.cisId := congrArg (·.2.2.1) h1
  have e3 : x.role = c.role := congrArg (·.2.2.2) h1
  rw [← e1, ← e2, ← h3]
  exact h x hx (e3.trans hr) h4

theorem sentInv_trace {tr : List (Op × List Out)} {s : State} (ht : TraceOf KeepsQueued {} tr s) : SentInv tr s := by
  induction ht with
  | nil => exact nofun
  | @snoc s1 s2 tr env op outs ht hp hstep ih =>
    have hi := trace_inv ht.trace
    have hq := queue_traceOf ht
    intro c hc hrole hst
    rw [lastSent_snoc]
    have hold : lastReqIn c.cigId c.cisId outs = none → From s1.cises c →
        ∃ p q, c.params = some p ∧ (lastReqIn c.cigId c.cisId outs).or (lastSent c.cigId c.cisId tr) = some q ∧
          Matches p q := by
      intro hn hf
      rw [hn, Option.none_or]
      exact ih.of_from hf hrole hst
    cases ho : op.starts with
    | false =>
      have hn := lastReqIn_none (a := c.cigId) (b := c.cisId) (step_waits hi ho hstep).2.2
      rcases step_back hi ho hstep with hb | ⟨acl, q, c', -, -, hcs, -, -, -, hst', -⟩
      · exact hold hn (hb c hc (Or.inl hst))
      · rw [hcs] at hc
        rcases List.mem_append.1 hc with hc | hc
        · exact hold hn (.self hc)
        · rw [List.mem_singleton] at hc; subst hc
          rw [hst'] at hst; cases hst
    | true =>
      rcases start_back ho hstep with ⟨rfl, hz⟩ | ⟨sa, o1, o2, o3, rfl, hz1, hz3, hd, hback, hids, hreq⟩
      · exact hold (lastReqIn_none hz) (.self hc)
      · have hlast : lastReqIn c.cigId c.cisId (o1 ++ o2 ++ o3) = lastReqIn c.cigId c.cisId o2 := by
          rw [lastReqIn_append, lastReqIn_append, lastReqIn_none hz1, lastReqIn_none hz3]
          simp
        rcases dequeue_back hd with ⟨hb, rfl⟩ | ⟨r, p, q, c₀, hr, rfl, q1, q2, hm, hf, hb⟩
        · exact hold (by rw [hlast]; rfl) (hback.trans hb c hc (Or.inl hst))
        · -- the CIS of the request
          have hr' : ∃ x ∈ s1.cises, x.handle = r.handle ∧ x.role = .central ∧ x.cigId = r.cigId ∧ x.cisId = r.cisId := by
            have hmem : r ∈ sa.requests := by rw [hr]; exact List.mem_cons_self
            rcases hreq with hreq | ⟨cs, -, hcheck, -⟩
            · rw [hreq] at hmem
              obtain ⟨x, hx, -, h2, h3, h4⟩ := hq.valid r hmem
              exact ⟨x, (findCis_some hx).1, (findCis_some hx).2, h2, h3, h4⟩
            · obtain ⟨new, hnew, -, h2, -⟩ := checkCreates_ok hcheck
              rw [List.nil_append] at hnew
              obtain ⟨-, x, hx, h3, h4, h5, h6⟩ := h2 r (hnew ▸ hmem)
              refine ⟨x, hx, h3, ?_, h5, h6⟩
              cases hxr : x.role with
              | central => rfl
              | peripheral => exact absurd h4 ((hi.cises x hx).accepted hxr)
          obtain ⟨x, hx, x1, x2, x3, x4⟩ := hr'
          rcases hb c hc (Or.inl hst) with ⟨hfrom, hne⟩ | ⟨y, hy, y1, y2, -, y4, -⟩
          · have hfrom' : From s1.cises c := by
              obtain ⟨y, hy, h1, h2, h3, h4⟩ := hfrom
              exact hback.trans (c := [c]) (fun c' hc' _ => by
                rw [List.mem_singleton] at hc'; subst hc'; exact ⟨y, hy, h1, h2, h3, h4⟩) c (by simp) (Or.inl hst)
            refine hold ?_ hfrom'
            rw [hlast, lastReqIn_one, if_neg]
            rintro ⟨e1, e2⟩
            obtain ⟨z, hz, z1, -⟩ := hfrom'
            have := hi.ids.unique x.ident (List.mem_map_of_mem hx) z.ident (List.mem_map_of_mem hz) x2 (by
              rw [z1]
              show (x.cigId, x.cisId, x.role) = (c.cigId, c.cisId, c.role)
              rw [x3, x4, x2, hrole, ← e1, ← e2, q1, q2])
            rw [z1] at this
            exact hne (by rw [← x1]; exact (congrArg (·.1) this).symm)
          · obtain ⟨z, hz, z1⟩ := hids y hy
            have hzx : z = x := eq_of_handle hi.ids hz hx (by
              rw [x1, ← y2]; exact congrArg (·.1) z1)
            subst hzx
            have hci : z.ident = c.ident := z1.trans y1
            have e1 : z.cigId = c.cigId := congrArg (·.2.1) hci
            have e2 : z.cisId = c.cisId := congrArg (·.2.2.1) hci
            refine ⟨p, q, y4, ?_, hm⟩
            rw [hlast, lastReqIn_one, if_pos ⟨by rw [q1, ← x3, e1], by rw [q2, ← x4, e2]⟩]
            rfl

/-- Invariant of the peripheral. -/
def ReceivedInv (tr : List (Op × List Out)) (s : State) : Prop :=
  ∀ c ∈ s.cises, c.role = .peripheral → (c.state = .pendingAccept ∨ c.state = .pendingInd) →
    ∃ acl q, c.acl = some acl ∧ c.params = some q.params ∧ lastReceived c.handle tr = some (acl, q)

theorem ReceivedInv.of_from {tr : List (Op × List Out)} {s : State} (h : ReceivedInv tr s) {c : Cis}
    (hf : From s.cises c) (hr : c.role = .peripheral) (hst : c.state = .pendingAccept ∨ c.state = .pendingInd) :
    ∃ acl q, c.acl = some acl ∧ c.params = some q.params ∧ lastReceived c.handle tr = some (acl, q) := by
  obtain ⟨x, hx, h1, h2, h3, h4⟩ := hf
  have h4 : x.state = .pendingAccept ∨ x.state = .pendingInd := by
    rcases h4 with h4 | ⟨h4, -⟩
    · rw [h4]; exact hst
    · exact Or.inl h4
  have e1 : x.handle = c.handle := congrArg (·.1) h1
  have e3 : x.role = c.role := congrArg (·.2.2.2) h1
  rw [← e1, ← h3, ← h2]
  exact h x hx (e3.trans hr) h4

theorem lastReceived_other {h : Nat} {tr : List (Op × List Out)} {op : Op} {outs : List Out}
    (ho : ∀ acl q, op ≠ .llcp acl (.cisReq q)) : lastReceived h (tr ++ [(op, outs)]) = lastReceived h tr := by
  rw [lastReceived_snoc, lastReceivedRev]
  · rfl
  · intro acl q a h' b c he
    cases he
    exact ho _ _ rfl

theorem receivedInv_trace {tr : List (Op × List Out)} {s : State} (ht : Trace {} tr s) : ReceivedInv tr s := by
  induction ht with
  | nil => exact nofun
  | @snoc s1 s2 tr env op outs ht hstep ih =>
    have hi := trace_inv ht
    intro c hc hrole hst
    have hlive : c.Live := hst.elim (fun h => Or.inr (Or.inl h)) (fun h => Or.inr (Or.inr h))
    by_cases hop : ∃ acl q, op = .llcp acl (.cisReq q)
    · obtain ⟨acl, q, rfl⟩ := hop
      simp only [step, runPdu, cisReq] at hstep
      split at hstep
      · cases hstep
      · rename_i h hn
        cases hstep
        rw [lastReceived_snoc]
        simp only [lastReceivedRev]
        rcases List.mem_append.1 hc with hc | hc
        · rw [if_neg (fun e => (newCisHandle_some hn).2 c hc e.symm)]
          exact ih c hc hrole hst
        · rw [List.mem_singleton] at hc; subst hc
          rw [if_pos rfl]
          exact ⟨acl, q, rfl, rfl, rfl⟩
    · have hop' : ∀ acl q, op ≠ .llcp acl (.cisReq q) := fun acl q e => hop ⟨acl, q, e⟩
      rw [lastReceived_other hop']
      cases ho : op.starts with
      | false =>
        rcases step_back hi ho hstep with hb | ⟨acl, q, -, he, -⟩
        · exact ih.of_from (hb c hc hlive) hrole hst
        · exact absurd he (hop' acl q)
      | true =>
        rcases start_back ho hstep with ⟨rfl, hz⟩ | ⟨sa, o1, o2, o3, rfl, -, -, hd, hback, -, -⟩
        · exact ih c hc hrole hst
        · rcases dequeue_back hd with ⟨hb, rfl⟩ | ⟨r, p, q, c₀, hr, rfl, -, -, -, -, hb⟩
          · exact ih.of_from (hback.trans hb c hc hlive) hrole hst
          · rcases hb c hc hlive with ⟨hfrom, -⟩ | ⟨y, hy, -, -, -, -, y5⟩
            · refine ih.of_from ?_ hrole hst
              exact hback.trans (c := [c]) (fun c' hc' _ => by
                rw [List.mem_singleton] at hc'; subst hc'; exact hfrom) c (by simp) hlive
            · rw [y5] at hst; rcases hst with hst | hst <;> cases hst

theorem phyCode_of {n m : Nat} (h : phyType n = .ok m) : PhyCode n m := by
  unfold phyType at h
  split at h
  · cases h; subst n; exact .le1m
  · split at h
    · cases h; subst n; exact .le2m
    · split at h
      · cases h; subst n; exact .coded
      · cases h

/-- The central tells its host the parameters of the last LL_CIS_REQ that it sent for this CIS, and sends the
synchronisation delays to the peer that it tells its host. -/
theorem C30_central_partial {tr : List (Op × List Out)} {s s' : State} {env : Env} {acl : Nat} {outs : List Out}
    {e : Established} (ht : TraceOf KeepsQueued {} tr s) (h : step env s (.llcp acl .cisRsp) = .ok (s', outs))
    (he : .event (.cisEstablished e) ∈ outs) :
    ∃ c ∈ s.cises, ∃ q a b, c.handle = e.handle ∧ c.role = .central ∧ c.acl = some acl ∧
      lastSent c.cigId c.cisId tr = some q ∧ .llcp acl (.cisInd a b) ∈ outs ∧
      TellsCommon e q a b ∧ TellsDirections e q ∧
      transportLatency a q.isoInterval q.ftC q.sduIntervalC (decide (q.framed ≠ 0)) = .ok e.latencyC ∧
      transportLatency a q.isoInterval q.ftP q.sduIntervalP (decide (q.framed ≠ 0)) = .ok e.latencyP := by
  simp only [step, runPdu, cisRsp] at h
  split at h
  · cases h; cases he
  · rename_i c ha
    obtain ⟨hm, hacl, hrole, hst⟩ := awaitingRsp_some ha
    split at h
    · cases h
    · rename_i p hp
      split at h
      · cases h
      · rename_i e' he'
        split at h
        · cases h
        · rename_i s2 o2 hd
          obtain ⟨rfl, rfl⟩ := send_ok h
          have hee : e = e' := by
            simp only [List.cons_append, List.nil_append, List.mem_cons] at he
            rcases he with he | he | he
            · cases he
            · cases he; rfl
            · rcases dequeue_cases hd with ⟨-, -, rfl⟩ | ⟨r, rest, p, c, -, -, -, q, rfl, -⟩
              · cases he
              · rw [List.mem_singleton] at he; cases he
          subst hee
          obtain ⟨p', q, hp', hq, m⟩ := sentInv_trace ht c hm hrole hst
          rw [hp] at hp'; cases hp'
          refine ⟨c, hm, q, p.cigSyncDelay, p.cisSyncDelay, ?_⟩
          unfold centralEvent at he'
          split at he'
          · rename_i lC lP fC fP h1 h2 h3 h4
            cases he'
            refine ⟨rfl, hrole, hacl, hq, by simp, ?_, ?_, ?_, ?_⟩
            · exact ⟨rfl, rfl, rfl, m.nse, m.isoInterval, m.phyC ▸ phyCode_of h3, m.phyP ▸ phyCode_of h4⟩
            · exact ⟨m.bnC, m.bnP, m.ftC, m.ftP, by simp only; rw [m.maxPduC], by simp only; rw [m.maxPduP]⟩
            · rw [← m.isoInterval, ← m.ftC, ← m.sduIntervalC, ← m.framed]; exact h1
            · rw [← m.isoInterval, ← m.ftP, ← m.sduIntervalP, ← m.framed]; exact h2
          all_goals cases he'

/-- The peripheral tells its host the parameters of the LL_CIS_REQ that it announced with this handle and the delays
of the LL_CIS_IND, except that the burst numbers, flush timeouts and PDU sizes are those of the other direction. -/
theorem C30_peripheral_partial {tr : List (Op × List Out)} {s s' : State} {env : Env} {acl a b : Nat} {outs : List Out}
    {e : Established} (ht : Trace {} tr s) (h : step env s (.llcp acl (.cisInd a b)) = .ok (s', outs))
    (he : .event (.cisEstablished e) ∈ outs) :
    ∃ q, lastReceived e.handle tr = some (acl, q) ∧ TellsCommon e q a b ∧ TellsDirections e.exchanged q ∧
      transportLatency a q.isoInterval q.ftC q.sduIntervalC (decide (q.framed ≠ 0)) = .ok e.latencyC ∧
      transportLatency a q.isoInterval q.ftP q.sduIntervalP (decide (q.framed ≠ 0)) = .ok e.latencyP := by
  simp only [step, runPdu, cisInd] at h
  split at h
  · cases h; cases he
  · rename_i c ha
    obtain ⟨hm, hacl, hrole, hst⟩ := awaitingInd_some ha
    split at h
    · cases h
    · rename_i p hp
      split at h
      · cases h
      · rename_i e' he'
        obtain ⟨rfl, rfl⟩ := send_ok h
        rw [List.mem_singleton] at he
        cases he
        obtain ⟨acl', q, hacl', hp', hq⟩ := receivedInv_trace ht c hm hrole (Or.inr hst)
        rw [hacl] at hacl'; cases hacl'
        rw [hp] at hp'; cases hp'
        refine ⟨q, ?_⟩
        unfold peripheralEvent at he'
        split at he'
        · rename_i lC lP fC fP h1 h2 h3 h4
          cases he'
          exact ⟨hq, ⟨rfl, rfl, rfl, rfl, rfl, phyCode_of h3, phyCode_of h4⟩, ⟨rfl, rfl, rfl, rfl, rfl, rfl⟩, h1, h2⟩
        all_goals cases he'

theorem phyCode_inj {n m m' : Nat} (h : PhyCode n m) (h' : PhyCode n m') : m = m' := by
  cases h <;> cases h' <;> rfl

/-- The full statement of the property is `SameParameters e e'` without the last hypothesis: the events of the central
and of the peripheral for one CIS are the same. Proved is that they are the same up to an exchange of the directions of
the burst numbers, flush timeouts and PDU sizes, so that they are the same if these do not depend on the direction. -/
theorem C30_agree_partial {tr trP : List (Op × List Out)} {s s' sP sP' : State} {env envP : Env} {acl aclP a b : Nat}
    {outs outsP : List Out} {e e' : Established}
    -- the central reports the CIS and sends LL_CIS_IND
    (ht : TraceOf KeepsQueued {} tr s) (h : step env s (.llcp acl .cisRsp) = .ok (s', outs))
    (he : .event (.cisEstablished e) ∈ outs) (hind : .llcp acl (.cisInd a b) ∈ outs)
    -- the peripheral receives it and reports the CIS
    (htP : Trace {} trP sP) (hP : step envP sP (.llcp aclP (.cisInd a b)) = .ok (sP', outsP))
    (heP : .event (.cisEstablished e') ∈ outsP)
    -- the request that the peripheral announced is the last one that the central sent for the CIS
    (hreq : ∀ c ∈ s.cises, c.handle = e.handle →
      (lastReceived e'.handle trP).map (·.2) = lastSent c.cigId c.cisId tr) :
    SameParameters e e'.exchanged ∧
      (e.bnC = e.bnP → e.ftC = e.ftP → e.maxPduC = e.maxPduP → SameParameters e e') := by
  obtain ⟨c, hc, q, a1, b1, hh, -, -, hq, hind1, hcom, hdir, l1, l2⟩ := C30_central_partial ht h he
  obtain ⟨q', hq', hcom', hdir', l1', l2'⟩ := C30_peripheral_partial htP hP heP
  have hqq := hreq c hc hh
  rw [hq, hq'] at hqq
  simp only [Option.map_some, Option.some.injEq] at hqq
  subst hqq
  have hab : a1 = a ∧ b1 = b := by
    simp only [step, runPdu, cisRsp] at h
    split at h
    · cases h; cases he
    · split at h
      · cases h
      · split at h
        · cases h
        · split at h
          · cases h
          · rename_i s2 o2 hd
            obtain ⟨rfl, rfl⟩ := send_ok h
            have hnot : ∀ x y z, Out.llcp x (.cisInd y z) ∉ o2 := by
              intro x y z hx
              rcases dequeue_cases hd with ⟨-, -, rfl⟩ | ⟨r, rest, p, c, -, -, -, q, rfl, -⟩
              · cases hx
              · rw [List.mem_singleton] at hx; cases hx
            simp only [List.cons_append, List.nil_append, List.mem_cons] at hind hind1
            rcases hind with hind | hind | hind
            · rcases hind1 with hind1 | hind1 | hind1
              · cases hind; cases hind1; exact ⟨rfl, rfl⟩
              · cases hind1
              · exact absurd hind1 (hnot _ _ _)
            · cases hind
            · exact absurd hind (hnot _ _ _)
  obtain ⟨rfl, rfl⟩ := hab
  rw [l1] at l1'; rw [l2] at l2'
  have e1 : e.latencyC = e'.latencyC := by injection l1'
  have e2 : e.latencyP = e'.latencyP := by injection l2'
  have e3 := phyCode_inj hcom.phyC hcom'.phyC
  have e4 := phyCode_inj hcom.phyP hcom'.phyP
  obtain ⟨c1, c2, c3, c4, c5, -, -⟩ := hcom
  obtain ⟨d1, d2, d3, d4, d5, -, -⟩ := hcom'
  obtain ⟨m1, m2, m3, m4, m5, m6⟩ := hdir
  obtain ⟨n1, n2, n3, n4, n5, n6⟩ := hdir'
  simp only [Established.exchanged] at n1 n2 n3 n4 n5 n6
  refine ⟨?_, fun s1 s2 s3 => ?_⟩
  · unfold SameParameters Established.exchanged
    rw [Established.mk.injEq]
    exact ⟨c1.trans d1.symm, rfl, c2.trans d2.symm, c3.trans d3.symm, e1, e2, e3, e4, c4.trans d4.symm,
      m1.trans n1.symm, m2.trans n2.symm, m3.trans n3.symm, m4.trans n4.symm, m5.trans n5.symm, m6.trans n6.symm,
      c5.trans d5.symm⟩
  · unfold SameParameters
    rw [Established.mk.injEq]
    exact ⟨c1.trans d1.symm, rfl, c2.trans d2.symm, c3.trans d3.symm, e1, e2, e3, e4, c4.trans d4.symm,
      s1.trans (m2.trans n2.symm), s1.symm.trans (m1.trans n1.symm), s2.trans (m4.trans n4.symm),
      s2.symm.trans (m3.trans n3.symm), s3.trans (m6.trans n6.symm), s3.symm.trans (m5.trans n5.symm),
      c5.trans d5.symm⟩

/-! ## Non-vacuity and violation -/

/-- The peripheral after it has accepted a request. -/
def acceptHistory (q : CisReq) : List (Env × Op) :=
  [(fullEnv, .addLink 0x20 .peripheral), (fullEnv, .llcp 0x20 (.cisReq q)), (fullEnv, .hci (.acceptCis 0xE00))]

/-- The request that the central of `createHistory` sends first: 100 octets towards the peripheral in one burst, 50 in
the other direction. -/
def sentReq : CisReq := ⟨3, 1, 1, 2, 0, 100, 50, 10000, 10000, 251, 251, 1, 10000, 1, 1, 1, 1, 8⟩

example : ∃ s outs, run {} createHistory = .ok (s, outs) ∧ .llcp 0x10 (.cisReq sentReq) ∈ outs :=
  ⟨_, _, rfl, by decide +kernel⟩

set_option maxRecDepth 8000 in
/-- Both sides reach the point at which they report the CIS. -/
example : ∃ s' outs e sP' outsP e', step fullEnv (stateAfter createHistory) (.llcp 0x10 .cisRsp) = .ok (s', outs) ∧
    .event (.cisEstablished e) ∈ outs ∧ .llcp 0x10 (.cisInd 10000 10000) ∈ outs ∧
    step fullEnv (stateAfter (acceptHistory sentReq)) (.llcp 0x20 (.cisInd 10000 10000)) = .ok (sP', outsP) ∧
    .event (.cisEstablished e') ∈ outsP ∧ SameParameters e e' :=
  ⟨_, _, ⟨0, 0xE00, 10000, 10000, 10000, 10000, 1, 2, 1, 1, 1, 1, 1, 251, 251, 8⟩, _, _,
    ⟨0, 0xE00, 10000, 10000, 10000, 10000, 1, 2, 1, 1, 1, 1, 1, 251, 251, 8⟩, rfl, by decide +kernel, by decide +kernel,
    rfl, by decide +kernel, rfl⟩

/-- The configuration of a CIS with 1000 octets towards the peripheral and 100 in the other direction, and the
LL_CIS_REQ that the central sends for it. -/
def asymmetricHistory : List (Env × Op) :=
  [(fullEnv, .addLink 0x10 .central),
    (fullEnv, .hci (.setCig 3 10000 10000 false 20 20 [⟨1, { maxSduC := 1000, maxSduP := 100, phyC := 1, phyP := 1 }⟩])),
    (fullEnv, .hci (.createCis [(0xE00, 0x10)]))]

def asymmetricReq : CisReq := ⟨3, 1, 1, 1, 0, 1000, 100, 10000, 10000, 251, 251, 4, 2500, 4, 1, 1, 1, 8⟩

set_option maxRecDepth 8000 in
/-- The two hosts are told different burst numbers for the same direction: the central 4 towards the peripheral and 1
in the other direction, the peripheral 1 and 4. -/
theorem C30_directions_violated :
    (∃ s outs, run {} asymmetricHistory = .ok (s, outs) ∧ .llcp 0x10 (.cisReq asymmetricReq) ∈ outs ∧
      ∃ s' outs' e, step fullEnv s (.llcp 0x10 .cisRsp) = .ok (s', outs') ∧ .event (.cisEstablished e) ∈ outs' ∧
        .llcp 0x10 (.cisInd 10000 10000) ∈ outs' ∧ e.bnC = 4 ∧ e.bnP = 1) ∧
    (∃ sP' outsP e', step fullEnv (stateAfter (acceptHistory asymmetricReq)) (.llcp 0x20 (.cisInd 10000 10000)) =
        .ok (sP', outsP) ∧ .event (.cisEstablished e') ∈ outsP ∧ e'.bnC = 1 ∧ e'.bnP = 4) := by
  refine ⟨⟨_, _, rfl, by decide +kernel, _, _, ⟨0, 0xE00, 10000, 10000, 10000, 10000, 1, 1, 4, 4, 1, 1, 1, 251, 251, 8⟩,
    rfl, by decide +kernel, by decide +kernel, rfl, rfl⟩, ⟨_, _,
    ⟨0, 0xE00, 10000, 10000, 10000, 10000, 1, 1, 4, 1, 4, 1, 1, 251, 251, 8⟩, rfl, by decide +kernel, rfl, rfl⟩⟩

set_option maxRecDepth 8000 in
/-- The peer may answer the second of two requests on one link first: its LL_CIS_RSP is taken as the answer to the
other one. The central reports the CIS 1 as established, although the peripheral's host has accepted only the CIS 2. -/
theorem C30_wrong_cis_violated :
    let ops : List (Env × Op) := [(fullEnv, .addLink 0x10 .central), (fullEnv, .hci exampleCig),
      (fullEnv, .hci (.createCis [(0xE00, 0x10)])), (fullEnv, .hci (.createCis [(0xE01, 0x10)]))]
    let q2 : CisReq := ⟨3, 2, 2, 2, 0, 100, 0, 10000, 10000, 251, 251, 1, 10000, 1, 0, 1, 1, 8⟩
    let opsP : List (Env × Op) := [(fullEnv, .addLink 0x20 .peripheral), (fullEnv, .llcp 0x20 (.cisReq sentReq)),
      (fullEnv, .llcp 0x20 (.cisReq q2)), (fullEnv, .hci (.acceptCis 0xE01))]
    (∃ s outs, run {} ops = .ok (s, outs) ∧ .llcp 0x10 (.cisReq sentReq) ∈ outs ∧ .llcp 0x10 (.cisReq q2) ∈ outs ∧
      ∃ s' outs' e, step fullEnv s (.llcp 0x10 .cisRsp) = .ok (s', outs') ∧ .event (.cisEstablished e) ∈ outs' ∧
        e.handle = 0xE00 ∧ (findCis s.cises 0xE00).map (·.cisId) = some 1) ∧
    (∃ sP outsP, run {} opsP = .ok (sP, outsP) ∧ .llcp 0x20 .cisRsp ∈ outsP ∧
      (sP.cises.filter (fun c => c.state = .pendingInd)).map (·.cisId) = [2]) := by
  refine ⟨⟨_, _, rfl, by decide +kernel, by decide +kernel, _, _,
    ⟨0, 0xE00, 10000, 10000, 10000, 10000, 1, 2, 1, 1, 1, 1, 1, 251, 251, 8⟩, rfl, by decide +kernel, rfl, rfl⟩,
    ⟨_, _, rfl, by decide +kernel, by decide +kernel⟩⟩

end Verif.Iso
