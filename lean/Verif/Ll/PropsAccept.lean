import Verif.Ll.PropsInit
/-!
# C54: accepting connections, C55: scan timing
-/

namespace Verif.Ll
open Verif.Le

/-! ### C54: specification -/

/-- The legacy advertiser takes a connect request of the (resolved) device `r` to the
address `adv`. -/
def LegacyTakes (s : Le.State) (adv r : AddressWithType) : Prop :=
  s.legacyAdv.enable = true ∧ s.legacyAdv.type ≠ .advNonconnInd ∧ s.legacyAdv.type ≠ .advScanInd ∧
  s.legacyAdv.advertisingAddress = adv ∧
  MayConnect s (s.legacyAdv.type = .advDirectIndHigh ∨ s.legacyAdv.type = .advDirectIndLow)
    (peerDeviceAddress s.legacyAdv.peerAddress s.legacyAdv.peerAddressType) s.legacyAdv.filterPolicy r

/-- An advertising set takes it. -/
def SetTakes (s : Le.State) (a : ExtAdv) (adv r : AddressWithType) : Prop :=
  a.enable = true ∧ a.properties.connectable = true ∧ a.advertisingAddress = adv ∧
  MayConnect s (a.properties.directed = true) (peerDeviceAddress a.peerAddress a.peerAddressType) a.filterPolicy r

/-! ### Lemmas -/

theorem legacyTakes_iff {s : Le.State} {adv r : AddressWithType} :
    LegacyTakes s adv r ↔ s.legacyAdv.enable = true ∧ legacyConnectable s.legacyAdv = true ∧
      s.legacyAdv.advertisingAddress = adv ∧
      connectAccepts s (legacyDirected s.legacyAdv) s.legacyAdv.peerAddress
        s.legacyAdv.peerAddressType s.legacyAdv.filterPolicy r = true := by
  unfold LegacyTakes
  rw [connectAccepts_iff]
  have h1 : legacyConnectable s.legacyAdv = true ↔ s.legacyAdv.type ≠ .advNonconnInd ∧ s.legacyAdv.type ≠ .advScanInd := by
    simp [legacyConnectable]
  have h2 : legacyDirected s.legacyAdv = true ↔ (s.legacyAdv.type = .advDirectIndHigh ∨ s.legacyAdv.type = .advDirectIndLow) := by
    simp [legacyDirected]
  rw [h1]
  unfold MayConnect
  rw [h2]
  tauto

theorem setTakes_iff {ah : Hash} {s : Le.State} {a : ExtAdv} {adv init : AddressWithType} :
    SetTakes s a adv (resolved ah s init) ↔ SetAccepts ah s a init adv := by
  unfold SetTakes SetAccepts
  rw [connectAccepts_iff]

/-- The effect of a connect request, in one place. -/
theorem connect_cases {ah : Hash} {cfg : Config} {rnd : Irk → Address} {now : Nat} {s : State}
    {init adv : AddressWithType} {q : LinkParams} {x : State × Obs}
    (h : step ah cfg s (.receive rnd now (.connect init adv q)) = .ok x) :
    (x.2.out = [] ∧ SameBut s x.1 ∧ ¬ LegacyTakes s.le adv (resolved ah s.le init) ∧
      ∀ e ∈ s.le.extAdv, ¬ SetTakes s.le e.2 adv (resolved ah s.le init)) ∨
    (∃ k, LegacyTakes s.le adv (resolved ah s.le init) ∧
      x.2.out = [.connected k (acceptedConn ah s.le init adv q), .send (.connectComplete init adv q)] ∧
      x.1.conns = (k, acceptedConn ah s.le init adv q) :: s.conns ∧
      x.1.le.legacyAdv = { s.le.legacyAdv with enable := false } ∧ x.1.le.extAdv = s.le.extAdv) ∨
    ∃ k g a, (g, a) ∈ s.le.extAdv ∧ SetTakes s.le a adv (resolved ah s.le init) ∧
      x.2.out = [.connected k (acceptedConn ah s.le init adv q), .send (.connectComplete init adv q),
        .setTerminated g (some k) a.numCompletedEvents] ∧
      x.1.conns = (k, acceptedConn ah s.le init adv q) :: s.conns ∧
      x.1.le.extAdv = mapSet s.le.extAdv g { a with enable := false } ∧ x.1.le.legacyAdv = s.le.legacyAdv ∧
      ¬ LegacyTakes s.le adv (resolved ah s.le init) := by
  simp only [step] at h
  obtain ⟨y, hy, h⟩ := Res.bind_eq_ok h
  cases h
  simp only [receive, incomingConnect] at hy
  obtain ⟨⟨b, s1, o1⟩, hl, hx⟩ := Res.bind_eq_ok hy
  simp only [legacyTakes_iff, setTakes_iff]
  have hloud : ∀ {s2 : State} {g : Bool × State × List Out}, legacyConnect ah s init adv q = .ok g → g.1 = false →
      g.2.1 = s2 → Looked ah init s s2 := by
    intro s2 g hg h1 h2
    simp only [legacyConnect] at hg
    repeat' split at hg
    all_goals try (cases hg; simp only at h2; subst h2; first | exact ⟨SameBut.refl _, fun _ => rfl⟩ | exact ⟨SameBut.update _ _ _, fun b => resolved_update ah s.le init b⟩)
    obtain ⟨w, hw, he⟩ := Res.bind_eq_ok hg
    cases he
    cases h1
  rcases legacyConnect_cases hl with ⟨hb, ho, hs, hn⟩ | ⟨hb, t1, t2, t3, t4, z, hz, hx'⟩
  · simp only at hb ho hs
    subst hb ho
    have hlk : Looked ah init s s1 := hloud hl rfl rfl
    simp only [Bool.false_eq_true, if_false] at hx
    have hext : s1.le.extAdv = s.le.extAdv := by obtain ⟨⟨r, rfl⟩, -⟩ := hlk; rfl
    have hleg : s1.le.legacyAdv = s.le.legacyAdv := by obtain ⟨⟨r, rfl⟩, -⟩ := hlk; rfl
    have hacc : ∀ a, SetAccepts ah s1.le a init adv ↔ SetAccepts ah s.le a init adv := by
      intro a; unfold SetAccepts; rw [hlk.connectAccepts, hlk.2]
    have hc1 : acceptedConn ah s1.le init adv q = acceptedConn ah s.le init adv q := by
      unfold acceptedConn; rw [hlk.2]
    rcases extConnectAll_cases _ hx with ⟨g1, g2, g3⟩ | ⟨k, a, s2, g1, g2, g3, z, hz, rfl⟩
    · refine .inl ⟨g1, hs.trans g2, hn, fun e he => ?_⟩
      rw [← hacc]; exact g3 e (by rw [hext]; exact he)
    · obtain ⟨last, -, -, ⟨i, h3⟩, h4, -, -, -, -, h8⟩ := handleConnection_cases hz
      obtain ⟨r', hr'⟩ := resolveUpdate_frame ah s2.le init
      obtain ⟨⟨r2, hs2⟩, -⟩ := g3
      obtain ⟨⟨r1, hs1⟩, -⟩ := hlk
      subst hs2 hs1
      refine .inr (.inr ⟨z.1, k, a, by rw [← hext]; exact g1, (hacc a).mp g2, ?_, ?_, ?_, ?_, hn⟩)
      · simp only [h8, hc1, Bool.false_eq_true, if_false]
        rfl
      · simp only [h4, hc1]
      · simp only [h3, hr']
      · simp only [h3, hr']
  · simp only at hb hx'
    subst hb
    simp only [if_true] at hx
    cases hx
    cases hx'
    obtain ⟨last, -, -, ⟨i, h3⟩, h4, -, -, -, -, h8⟩ := handleConnection_cases hz
    obtain ⟨r', hr'⟩ := resolveUpdate_frame ah s.le init
    refine .inr (.inl ⟨z.1, ⟨t1, t2, t3, t4⟩, ?_, ?_, ?_, ?_⟩)
    · simp only [h8, Bool.false_eq_true, if_false]; rfl
    · simp only [h4]
    · simp only [h3, hr']
    · simp only [h3, hr']

/-! ### C54 -/

/-- A connect request makes a connection exactly if a connectable advertiser with that
address is on and lets the requester connect. -/
theorem C54_accepts {ah : Hash} {cfg : Config} {rnd : Irk → Address} {now : Nat} {s s' : State}
    {init adv : AddressWithType} {q : LinkParams} {o : Obs}
    (h : step ah cfg s (.receive rnd now (.connect init adv q)) = .ok (s', o)) :
    connectedOf o.out ≠ [] ↔
      ∃ r, Identity ah s.le init r ∧
        (LegacyTakes s.le adv r ∨ ∃ e ∈ s.le.extAdv, SetTakes s.le e.2 adv r) := by
  have hid : (∃ r, Identity ah s.le init r ∧ (LegacyTakes s.le adv r ∨ ∃ e ∈ s.le.extAdv, SetTakes s.le e.2 adv r)) ↔
      (LegacyTakes s.le adv (resolved ah s.le init) ∨ ∃ e ∈ s.le.extAdv, SetTakes s.le e.2 adv (resolved ah s.le init)) := by
    constructor
    · rintro ⟨r, hr, h⟩
      rw [← identity_iff] at hr
      rw [hr]; exact h
    · intro h; exact ⟨_, (identity_iff _ _ _ _).mp rfl, h⟩
  rw [hid]
  rcases connect_cases h with ⟨h1, -, h2, h3⟩ | ⟨k, h1, h2, -⟩ | ⟨k, g, a, h0, h1, h2, -⟩
  · have h1 : o.out = [] := h1
    simp only [h1, connectedOf, List.filterMap_nil, ne_eq, not_true_eq_false, false_iff]
    rintro (h | ⟨e, he, h⟩)
    · exact h2 h
    · exact h3 e he h
  · have h2 : o.out = _ := h2
    rw [h2]
    exact ⟨fun _ => .inl h1, fun _ => by simp [connectedOf]⟩
  · have h2 : o.out = _ := h2
    rw [h2]
    exact ⟨fun _ => .inr ⟨_, h0, h1⟩, fun _ => by simp [connectedOf]⟩

/-- The effect of accepting: one connection, with the addresses and parameters of the
request and the role of peripheral, one event, one answer to the initiator, and the
advertiser that took the request stops; for an advertising set the host is told. -/
theorem C54_accepted {ah : Hash} {cfg : Config} {rnd : Irk → Address} {now : Nat} {s s' : State}
    {init adv : AddressWithType} {q : LinkParams} {o : Obs}
    (h : step ah cfg s (.receive rnd now (.connect init adv q)) = .ok (s', o))
    (hc : connectedOf o.out ≠ []) :
    ∃ k c, s'.conns = (k, c) :: s.conns ∧ c.address = init ∧ c.own = adv ∧ c.params = q ∧ c.role = .peripheral ∧
      ((s.le.legacyAdv.enable = true ∧ s.le.legacyAdv.advertisingAddress = adv ∧
          s'.le.legacyAdv.enable = false ∧ s'.le.extAdv = s.le.extAdv ∧
          o.out = [.connected k c, .send (.connectComplete init adv q)]) ∨
       ∃ g a, (g, a) ∈ s.le.extAdv ∧ a.enable = true ∧ a.advertisingAddress = adv ∧
          s'.le.legacyAdv = s.le.legacyAdv ∧ mapFind s'.le.extAdv g = some { a with enable := false } ∧
          (∀ g', g' ≠ g → mapFind s'.le.extAdv g' = mapFind s.le.extAdv g') ∧
          o.out = [.connected k c, .send (.connectComplete init adv q), .setTerminated g (some k) a.numCompletedEvents]) := by
  rcases connect_cases h with ⟨h1, -⟩ | ⟨k, h1, h2, h3, h4, h5⟩ | ⟨k, g, a, h0, h1, h2, h3, h4, h5, -⟩
  · have h1 : o.out = [] := h1
    exact absurd (by rw [h1]; rfl) hc
  · exact ⟨k, _, h3, rfl, rfl, rfl, rfl, .inl ⟨h1.1, h1.2.2.2.1, by rw [h4], h5, h2⟩⟩
  · refine ⟨k, _, h3, rfl, rfl, rfl, rfl, .inr ⟨g, a, h0, h1.1, h1.2.2.1, h5, ?_, ?_, h2⟩⟩
    · have h4 : s'.le.extAdv = _ := h4
      rw [h4, mapFind_mapSet, if_pos rfl]
    · intro g' hg
      have h4 : s'.le.extAdv = _ := h4
      rw [h4, mapFind_mapSet, if_neg (Ne.symm hg)]

/-- The two ends of a connection: the answer to an accepted request gives the initiator
that waits for it the mirrored connection, with the same parameters. -/
theorem C54_mirrored {ah : Hash} {cfg cfg' : Config} {rnd rnd' : Irk → Address} {now now' : Nat}
    {s s' t : State} {init adv : AddressWithType} {q : LinkParams} {o : Obs}
    (h : step ah cfg s (.receive rnd now (.connect init adv q)) = .ok (s', o))
    (hc : connectedOf o.out ≠ [])
    (ht : Reachable ah cfg' t) (hp : t.le.initiator.pendingConnectRequest = some adv)
    (hl : t.conns.length < 256) :
    .send (.connectComplete init adv q) ∈ o.out ∧
    ∃ k c k' c' x, s'.conns = (k, c) :: s.conns ∧
      step ah cfg' t (.receive rnd' now' (.connectComplete init adv q)) = .ok x ∧
      x.1.conns = (k', c') :: t.conns ∧ connectedOf x.2.out = [(k', c')] ∧
      c'.own = c.address ∧ c'.address = c.own ∧ c'.params = c.params ∧
      c.role = .peripheral ∧ c'.role = .central := by
  obtain ⟨k, c, h1, h2, h3, h4, h5, h6⟩ := C54_accepted h hc
  obtain ⟨k', c', x, g1, g2, g3, g4, g5, g6, -, g8, -⟩ :=
    C36_response_completes (rnd := rnd') (now := now') (init := init) (q := q) ht hp hl
  refine ⟨?_, k, c, k', c', x, h1, g1, g8, g2, by rw [g4, h2], by rw [g3, h3], by rw [g5, h4], h5, g6⟩
  rcases h6 with ⟨-, -, -, -, h6⟩ | ⟨g, a, -, -, -, -, -, -, h6⟩ <;> rw [h6] <;> simp

/-- Data sent on one end of a connection is delivered, unaltered, on the other end, if
the receiver has a single connection between the two addresses. -/
theorem C54_data_partial {ah : Hash} {cfg cfg' : Config} {rnd : Irk → Address} {now : Nat} {s t : State}
    (hs : Reachable ah cfg s) (ht : Reachable ah cfg' t)
    {k k' : Nat} {c c' : LeConn} (hk : (k, c) ∈ s.conns) (hk' : (k', c') ∈ t.conns)
    (h1 : c'.own = c.address) (h2 : c'.address = c.own)
    (hu : ∀ e ∈ t.conns, e.2.address.address = c'.address.address → e.2.own.address = c'.own.address → e.1 = k')
    (pb : Nat) (data : List UInt8) :
    ∃ p, step ah cfg s (.sendAcl k pb 0 data) = .ok (s, ⟨none, [.send p, .completedPackets k]⟩) ∧
      step ah cfg' t (.receive rnd now p) = .ok (t, ⟨none, [.acl k' (if pb = 0 then 2 else pb) 0 data]⟩) := by
  refine ⟨.link c.own.address c.address.address (.acl pb 0 data), ?_, ?_⟩
  · have hf := Conn.mem_find _ (connsOk_reachable hs).sound.nodup _ _ hk
    simp only [step, handleAcl, ne_eq, not_true_eq_false, if_false, hf, Res.bind]
  · obtain ⟨h, d, t', out, g1, g2, g3, g4, g5, g6⟩ := C37_known_processed ht (rnd := rnd) (now := now)
      (source := c.own.address) (destination := c.address.address) (.acl pb 0 data)
      ⟨k', c', hk', by rw [h2], by rw [h1]⟩
    have : h = k' := hu (h, d) g1 (by simp only [g2, h2]) (by simp only [g3, h1])
    subst this
    rw [g4, g5, g6]

/-- **Counterexample.** The host may create a second connection to a connected device:
the command is not rejected, and two connections have the same addresses. -/
theorem C54_second_connection_violated :
    (seen (attempt ++ [.receive someRnd 0 (.connectComplete centralAddress advertiserA someParams)] ++
      attempt ++ [.receive someRnd 0 (.connectComplete centralAddress advertiserA someParams)])).1 =
    [(0x201, ⟨advertiserA, centralAddress, ⟨0, .publicDevice⟩, .central, someParams⟩),
     (0x200, ⟨advertiserA, centralAddress, ⟨0, .publicDevice⟩, .central, someParams⟩)] := by
  decide +kernel

/-- An advertiser accepts a request to its address, and stops: the second request is not
accepted. A request to another address is not either. -/
example :
    (seen [.cmd (.setAdvertisingParameters ⟨0x800, 0x800, .advInd, .pub, .pub, 0, 7, .allDevices⟩), .cmd (.setAdvertisingEnable 0 (fun _ _ => 0) true),
      .receive someRnd 0 (.connect advertiserA advertiserB someParams),
      .receive someRnd 0 (.connect advertiserA centralAddress someParams),
      .receive someRnd 0 (.connect advertiserB centralAddress someParams)]).2 =
    [[], [], [],
     [.connected 0x200 ⟨advertiserA, centralAddress, ⟨0, .publicDevice⟩, .peripheral, someParams⟩,
      .send (.connectComplete advertiserA centralAddress someParams)], []] := by
  decide +kernel

/-! ### C55 -/

/-- Scanning with a duration and no period ends with the first tick after the duration,
and only then; the host is told. -/
theorem C55_single {ah : Hash} {cfg : Config} {s s' : State} {now t : Nat} {o : Obs}
    (h : step ah cfg s (.tick now) = .ok (s', o)) (he : s.le.scanner.enable = true)
    (ht : s.le.scanner.timeout = some t) (hp : s.le.scanner.periodicalTimeout = none) :
    (.scanTimeout ∈ o.out ↔ t ≤ now) ∧ (s'.le.scanner.enable = false ↔ t ≤ now) := by
  simp only [step] at h
  obtain ⟨y, hy, h⟩ := Res.bind_eq_ok h
  cases h
  simp only [tick] at hy
  split at hy
  · cases hy
  · rename_i le out ha
    cases hy
    have hsc : le.scanner = s.le.scanner := by
      simp only [advertising] at ha
      split at ha
      · cases ha
      · cases ha; rfl
    have hno : Out.scanTimeout ∉ out.map (advOut s.le.extAdv) := by
      intro hm
      obtain ⟨a, -, ha⟩ := List.mem_map.mp hm
      cases a <;> cases ha
    simp only [List.mem_append, hno, false_or, scanning, hsc, he, ht, hp, Bool.true_eq_false, if_false,
      Option.any_some, Option.isNone_none, Bool.and_true, Option.isSome_none, Bool.and_false]
    by_cases hn : t ≤ now
    · simp [hn]
    · simp [hn, he, ht]

/-- Scanning without a duration never ends by itself. -/
theorem C55_continuous {ah : Hash} {cfg : Config} {s s' : State} {now : Nat} {o : Obs}
    (h : step ah cfg s (.tick now) = .ok (s', o))
    (ht : s.le.scanner.timeout = none) :
    .scanTimeout ∉ o.out ∧ s'.le.scanner.enable = s.le.scanner.enable := by
  simp only [step] at h
  obtain ⟨y, hy, h⟩ := Res.bind_eq_ok h
  cases h
  simp only [tick] at hy
  split at hy
  · cases hy
  · rename_i le out ha
    cases hy
    have hsc : le.scanner = s.le.scanner := by
      simp only [advertising] at ha
      split at ha
      · cases ha
      · cases ha; rfl
    have hno : Out.scanTimeout ∉ out.map (advOut s.le.extAdv) := by
      intro hm
      obtain ⟨a, -, ha⟩ := List.mem_map.mp hm
      cases a <;> cases ha
    simp only [List.mem_append, hno, false_or, scanning, hsc]
    by_cases he : s.le.scanner.enable = false
    · simp [he, hsc]
    · simp only [if_neg he, ht, Option.any_none, Bool.false_and, Bool.false_eq_true, if_false, List.not_mem_nil,
        not_false_eq_true, true_and]
      split <;> rfl

/-- The operation leaves the scanner alone: it is not a scan command nor a reset. -/
def LeavesScan : Op → Prop
  | .cmd (.setScanParameters ..) | .cmd (.setScanEnable ..) | .cmd (.setExtendedScanParameters ..)
  | .cmd (.setExtendedScanEnable ..) | .reset => False
  | _ => True

/-- A step before the end of the duration leaves the scanner as it is. -/
theorem step_scan {ah : Hash} {cfg : Config} {s : State} {o : Op} {x : State × Obs} {t : Nat}
    (h : step ah cfg s o = .ok x) (hl : LeavesScan o)
    (ht : s.le.scanner.timeout = some t) (hp : s.le.scanner.periodicalTimeout = none)
    (hn : ∀ now, o = .tick now → now < t) : x.1.le.scanner = s.le.scanner := by
  cases o with
  | cmd c =>
    simp only [step] at h
    obtain ⟨y, hy, h⟩ := Res.bind_eq_ok h
    cases h
    have hr : ∃ e, runCmd cfg s.le c = .ret y.1.le e := by
      simp only [command] at hy
      split at hy
      · cases hy
      · rename_i le e hr
        split at hy <;> (cases hy; exact ⟨e, hr⟩)
    obtain ⟨e, hr⟩ := hr
    exact runCmd_scanner (by cases c <;> first | rfl | exact hl.elim) hr
  | receive rnd now p =>
    simp only [step] at h
    obtain ⟨y, hy, h⟩ := Res.bind_eq_ok h
    cases h
    exact (receive_scanner hy).1
  | tick now =>
    simp only [step] at h
    obtain ⟨y, hy, h⟩ := Res.bind_eq_ok h
    cases h
    have hlt := hn now rfl
    simp only [tick] at hy
    split at hy
    · cases hy
    · rename_i le out ha
      cases hy
      have hsc : le.scanner = s.le.scanner := by
        simp only [advertising] at ha
        split at ha
        · cases ha
        · cases ha; rfl
      simp only [scanning, hsc]
      by_cases he : s.le.scanner.enable = false
      · rw [if_pos he, hsc]
      · have : ¬ t ≤ now := by omega
        rw [if_neg he]
        simp [ht, hp, this]
  | sendAcl a b c d =>
    simp only [step, handleAcl] at h
    obtain ⟨y, hy, h⟩ := Res.bind_eq_ok h
    cases h
    split at hy
    · cases hy
    split at hy <;> (cases hy; rfl)
  | disconnect a b c =>
    simp only [step, disconnect] at h
    obtain ⟨y, hy, h⟩ := Res.bind_eq_ok h
    cases h
    split at hy
    · cases hy; rfl
    split at hy
    · cases hy
    · rename_i hr
      obtain ⟨-, rfl⟩ := removeConnection_cases hr
      cases hy
      rfl
  | reset => exact hl.elim

/-- After a successful LE Set Extended Scan Enable with a duration of `d` units of 10 ms
and no period, whatever else happens but scan commands and a reset: the controller scans
until the first tick at or after the end of the duration, which stops it and tells the
host. -/
theorem C55_duration {ah : Hash} {cfg : Config} {s s1 s2 s3 : State} {now d t : Nat}
    {fd : FilterDuplicates} {out : List Out} {ops : List Op} {obs : List Obs} {o : Obs}
    (h1 : step ah cfg s (.cmd (.setExtendedScanEnable now true fd d 0)) = .ok (s1, ⟨some .success, out⟩))
    (hd : d ≠ 0) (h2 : run ah cfg ops s1 = .ok (s2, obs)) (hl : ∀ o ∈ ops, LeavesScan o)
    (ht : ∀ t', .tick t' ∈ ops → t' < now + 10000 * d) (h3 : step ah cfg s2 (.tick t) = .ok (s3, o)) :
    s2.le.scanner.enable = true ∧ (.scanTimeout ∈ o.out ↔ now + 10000 * d ≤ t) ∧
    (s3.le.scanner.enable = false ↔ now + 10000 * d ≤ t) := by
  have hs1 : s1.le.scanner.enable = true ∧ s1.le.scanner.timeout = some (now + 10000 * d) ∧
      s1.le.scanner.periodicalTimeout = none := by
    simp only [step] at h1
    obtain ⟨⟨y1, y2⟩, hy, h⟩ := Res.bind_eq_ok h1
    cases h
    have hr : runCmd cfg s.le (.setExtendedScanEnable now true fd d 0) = .ret y1.le .success := by
      simp only [command] at hy
      split at hy
      · cases hy
      · rename_i le e hr
        split at hy <;> (cases hy; exact hr)
    obtain ⟨hq, he⟩ := runCmd_ret_of hr
    simp only [setExtendedScanEnable, withExtended, checked, checkedThen] at hq he
    generalize hpr : (if d = 0 then 0 else 0) = pr at hq he
    have hpr : pr = 0 := by rw [← hpr, ite_self]
    subst hpr
    split at hq
    · rename_i hu; rw [if_pos hu] at he; cases he
    rename_i hu
    rw [if_neg hu] at he
    simp only [Bool.true_eq_false, if_false] at hq he
    split at hq
    · simp only [hq, if_neg hd, if_true]
      exact ⟨trivial, trivial, trivial⟩
    · rename_i hf
      rw [if_neg hf] at he
      exact absurd he.symm hf
  have key : ∀ (ops : List Op) (s : State) (y : State × List Obs), run ah cfg ops s = .ok y →
      (∀ o ∈ ops, LeavesScan o) → (∀ t', .tick t' ∈ ops → t' < now + 10000 * d) →
      s.le.scanner.timeout = some (now + 10000 * d) → s.le.scanner.periodicalTimeout = none →
      y.1.le.scanner = s.le.scanner := by
    intro ops
    induction ops with
    | nil => intro s y h _ _ _ _; cases h; rfl
    | cons o ops ih =>
      intro s y h hl ht g1 g2
      simp only [run] at h
      obtain ⟨x, hx, h⟩ := Res.bind_eq_ok h
      obtain ⟨z, hz, h⟩ := Res.bind_eq_ok h
      cases h
      have hsame := step_scan hx (hl o (List.mem_cons_self ..)) g1 g2
        (fun t' he => ht t' (he ▸ List.mem_cons_self ..))
      have := ih x.1 z hz (fun o ho => hl o (List.mem_cons_of_mem _ ho))
        (fun t' hm => ht t' (List.mem_cons_of_mem _ hm)) (by rw [hsame]; exact g1) (by rw [hsame]; exact g2)
      exact this.trans hsame
  have hs2 := key ops s1 _ h2 hl ht hs1.2.1 hs1.2.2
  simp only at hs2
  have he : s2.le.scanner.enable = true := by rw [hs2]; exact hs1.1
  have := C55_single h3 he (by rw [hs2]; exact hs1.2.1) (by rw [hs2]; exact hs1.2.2)
  exact ⟨he, this⟩

/-- A scan of 20 ms stops at the first tick after 20 ms. -/
example : (seen [.cmd (.setExtendedScanEnable 0 true .disabled 2 0), .tick 19999, .tick 20000, .tick 20001]).2 =
    [[], [], [.scanTimeout], []] := by decide +kernel

/-- The missing part of C55, for periodic scans: **counterexample.** A scan of 10 ms in
every 1280 ms still reports a PDU that is received 640 ms after its start. -/
theorem C55_periodic_violated :
    (seen [.cmd (.setExtendedScanEnable 0 true .disabled 1 1), .tick 10000, .tick 640000,
      .receive someRnd 640000 (.legacyAdv ⟨advertiserA, ⟨0, .publicDevice⟩, .advNonconnInd, [1]⟩)]).2 =
    [[], [], [], [.extReport { connectable := false, scannable := false, directed := false, scanResponse := false, legacy := true, address := advertiserA, primary := .le1m, secondary := .noPackets, sid := 0xff, interval := 0, direct := none, complete := true, data := [1] }]] := by
  decide +kernel

end Verif.Ll
