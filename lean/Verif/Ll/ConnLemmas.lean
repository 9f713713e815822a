import Verif.Ll.SyncLemmas
import Verif.Ll.SpecConn
import Verif.Conn.Lemmas
/-!
# LE connections: helper lemmas
-/

namespace Verif.Ll
open Verif.Le

/-! ### Resolution does not depend on remembered addresses -/

theorem find_modifyFirst {α β : Type} (p q : α → Bool) (f : α → α) (g : α → β)
    (hp : ∀ a, p (f a) = p a) (hg : ∀ a, g (f a) = g a) (l : List α) :
    ((modifyFirst q f l).find? p).map g = (l.find? p).map g := by
  induction l with
  | nil => rfl
  | cons a l ih =>
    simp only [modifyFirst]
    split
    · simp only [List.find?_cons, hp]
      split
      · simp [hg]
      · rfl
    · simp only [List.find?_cons]
      split
      · rfl
      · exact ih

theorem resolvePrivate_update (ah : Hash) (s : Le.State) (a b : AddressWithType) :
    resolvePrivate ah (resolveUpdate ah s a) b = resolvePrivate ah s b := by
  unfold resolveUpdate
  split
  · simp only [resolvePrivate, findResolving]
    rw [find_modifyFirst]
    · intro e; rfl
    · intro e; rfl
  · rfl

theorem resolved_update (ah : Hash) (s : Le.State) (a b : AddressWithType) :
    resolved ah (resolveUpdate ah s a) b = resolved ah s b := by
  unfold resolved; rw [resolvePrivate_update]

/-! ### Accepting a connection -/

theorem connectAccepts_iff (s : Le.State) (d : Bool) (peer : Address) (t : PeerAddressType)
    (policy : AdvertisingFilterPolicy) (r : AddressWithType) :
    connectAccepts s d peer t policy r = true ↔
      MayConnect s (d = true) (peerDeviceAddress peer t) policy r := by
  unfold connectAccepts MayConnect
  cases d <;> cases policy <;> simp [falContains_iff]

theorem connectAccepts_update (ah : Hash) (s : Le.State) (a : AddressWithType) (d : Bool)
    (peer : Address) (t : PeerAddressType) (policy : AdvertisingFilterPolicy) (r : AddressWithType) :
    connectAccepts (resolveUpdate ah s a) d peer t policy r = connectAccepts s d peer t policy r := by
  obtain ⟨l, hl⟩ := resolveUpdate_frame ah s a
  rw [hl]; rfl

/-- The state differs only by remembered addresses. -/
def SameBut (s s' : State) : Prop := ∃ r, s' = { s with le := { s.le with resolvingList := r } }

theorem SameBut.refl (s : State) : SameBut s s := ⟨_, rfl⟩

theorem SameBut.update (ah : Hash) (s : State) (a : AddressWithType) :
    SameBut s { s with le := resolveUpdate ah s.le a } := by
  obtain ⟨r, hr⟩ := resolveUpdate_frame ah s.le a
  exact ⟨r, by rw [hr]⟩

theorem SameBut.trans {a b c : State} (h1 : SameBut a b) (h2 : SameBut b c) : SameBut a c := by
  obtain ⟨_, rfl⟩ := h1
  obtain ⟨_, rfl⟩ := h2
  exact ⟨_, rfl⟩

/-- `handleConnection` adds a connection with a free handle. -/
theorem handleConnection_cases {s : State} {c : LeConn} {ch : Bool}
    {x : Nat × State × List Out} (h : handleConnection s c ch = .ok x) :
    ∃ last, Conn.getUnusedHandle s.conns Conn.leStart Conn.leEnd s.lastHandle = some (x.1, last) ∧
      x.1 ∉ s.links ∧ (∃ i, x.2.1.le = { s.le with initiator := i }) ∧
      x.2.1.conns = (x.1, c) :: s.conns ∧ x.2.1.lastHandle = last ∧ x.2.1.links = x.1 :: s.links ∧
      x.2.1.history = s.history ∧ x.2.1.pending = s.pending ∧
      x.2.2 = .connected x.1 c :: (if ch then [.channelSelection x.1] else []) := by
  unfold handleConnection at h
  split at h
  · cases h
  · rename_i hh last hu
    split at h
    · cases h
    · rename_i hc
      cases h
      exact ⟨last, hu, by simpa using hc, ⟨_, rfl⟩, rfl, rfl, rfl, rfl, rfl, rfl⟩

/-- The connection of an accepted request. -/
def acceptedConn (ah : Hash) (s : Le.State) (init adv : AddressWithType) (q : LinkParams) : LeConn :=
  ⟨init, adv, resolvedOrEmpty (resolved ah s init) init, .peripheral, q⟩

theorem legacyConnect_cases {ah : Hash} {s : State} {init adv : AddressWithType}
    {q : LinkParams} {x : Bool × State × List Out}
    (h : legacyConnect ah s init adv q = .ok x) :
    (x.1 = false ∧ x.2.2 = [] ∧ SameBut s x.2.1 ∧
      ¬ (s.le.legacyAdv.enable = true ∧ legacyConnectable s.le.legacyAdv = true ∧
        s.le.legacyAdv.advertisingAddress = adv ∧
        connectAccepts s.le (legacyDirected s.le.legacyAdv) s.le.legacyAdv.peerAddress
          s.le.legacyAdv.peerAddressType s.le.legacyAdv.filterPolicy (resolved ah s.le init) = true)) ∨
    (x.1 = true ∧ s.le.legacyAdv.enable = true ∧ legacyConnectable s.le.legacyAdv = true ∧
      s.le.legacyAdv.advertisingAddress = adv ∧
      connectAccepts s.le (legacyDirected s.le.legacyAdv) s.le.legacyAdv.peerAddress
        s.le.legacyAdv.peerAddressType s.le.legacyAdv.filterPolicy (resolved ah s.le init) = true ∧
      ∃ y, handleConnection { s with le := resolveUpdate ah s.le init } (acceptedConn ah s.le init adv q) false = .ok y ∧
        x.2 = ({ y.2.1 with le := { y.2.1.le with legacyAdv := { y.2.1.le.legacyAdv with enable := false } } },
          y.2.2 ++ [.send (.connectComplete init adv q)])) := by
  simp only [legacyConnect] at h
  split at h
  · rename_i h1; cases h; exact .inl ⟨rfl, rfl, SameBut.refl _, by simp [h1]⟩
  rename_i h1
  split at h
  · rename_i h2; cases h; exact .inl ⟨rfl, rfl, SameBut.refl _, by simp [h2]⟩
  rename_i h2
  split at h
  · rename_i h3; cases h; exact .inl ⟨rfl, rfl, SameBut.refl _, fun hx => h3 hx.2.2.1⟩
  rename_i h3
  rw [connectAccepts_update] at h
  split at h
  · rename_i h4
    cases h
    exact .inl ⟨rfl, rfl, SameBut.update _ _ _, by simp [h4]⟩
  rename_i h4
  obtain ⟨y, hy, hx⟩ := Res.bind_eq_ok h
  cases hx
  exact .inr ⟨rfl, by simpa using h1, by simpa using h2, by simpa using h3, by simpa using h4, y, hy, rfl⟩

theorem extConnect_cases {ah : Hash} {s : State} {h : UInt8} {a : ExtAdv}
    {init adv : AddressWithType} {q : LinkParams} {x : Bool × State × List Out}
    (he : extConnect ah s h a init adv q = .ok x) :
    (x.1 = false ∧ x.2.2 = [] ∧
      (x.2.1 = s ∨ x.2.1 = { s with le := resolveUpdate ah s.le init }) ∧
      ¬ (a.enable = true ∧ a.properties.connectable = true ∧ a.advertisingAddress = adv ∧
        connectAccepts s.le a.properties.directed a.peerAddress a.peerAddressType a.filterPolicy
          (resolved ah s.le init) = true)) ∨
    (x.1 = true ∧ a.enable = true ∧ a.properties.connectable = true ∧ a.advertisingAddress = adv ∧
      connectAccepts s.le a.properties.directed a.peerAddress a.peerAddressType a.filterPolicy
        (resolved ah s.le init) = true ∧
      ∃ y, handleConnection { s with le := { resolveUpdate ah s.le init with extAdv := mapSet (resolveUpdate ah s.le init).extAdv h { a with enable := false } } }
          (acceptedConn ah s.le init adv q) false = .ok y ∧
        x.2 = (y.2.1, y.2.2 ++ [.send (.connectComplete init adv q), .setTerminated h (some y.1) a.numCompletedEvents])) := by
  simp only [extConnect] at he
  split at he
  · rename_i h1; cases he; exact .inl ⟨rfl, rfl, .inl rfl, by simp [h1]⟩
  rename_i h1
  split at he
  · rename_i h2; cases he; exact .inl ⟨rfl, rfl, .inl rfl, by simp [h2]⟩
  rename_i h2
  split at he
  · rename_i h3; cases he; exact .inl ⟨rfl, rfl, .inl rfl, fun hx => h3 hx.2.2.1⟩
  rename_i h3
  rw [connectAccepts_update] at he
  split at he
  · rename_i h4
    cases he
    exact .inl ⟨rfl, rfl, .inr rfl, by simp [h4]⟩
  rename_i h4
  obtain ⟨y, hy, hx⟩ := Res.bind_eq_ok he
  cases hx
  exact .inr ⟨rfl, by simpa using h1, by simpa using h2, by simpa using h3, by simpa using h4, y, hy, rfl⟩

/-- The state while the sets are looked at. -/
def Looked (ah : Hash) (init : AddressWithType) (s s' : State) : Prop :=
  SameBut s s' ∧ ∀ b, resolved ah s'.le b = resolved ah s.le b

theorem Looked.trans {ah : Hash} {init : AddressWithType} {a b c : State}
    (h1 : Looked ah init a b) (h2 : Looked ah init b c) : Looked ah init a c :=
  ⟨h1.1.trans h2.1, fun x => by rw [h2.2, h1.2]⟩

theorem Looked.connectAccepts {ah : Hash} {init : AddressWithType} {s s' : State}
    (h : Looked ah init s s') (d p t f r) :
    Ll.connectAccepts s'.le d p t f r = Ll.connectAccepts s.le d p t f r := by
  obtain ⟨⟨_, rfl⟩, -⟩ := h
  rfl

/-- A set accepts the request. -/
def SetAccepts (ah : Hash) (s : Le.State) (a : ExtAdv) (init adv : AddressWithType) : Prop :=
  a.enable = true ∧ a.properties.connectable = true ∧ a.advertisingAddress = adv ∧
    connectAccepts s a.properties.directed a.peerAddress a.peerAddressType a.filterPolicy
      (resolved ah s init) = true

theorem extConnectAll_cases {ah : Hash} {init adv : AddressWithType} {q : LinkParams}
    (l : List (UInt8 × ExtAdv)) : ∀ {s : State} {x : State × List Out},
      extConnectAll ah init adv q l s = .ok x →
      (x.2 = [] ∧ SameBut s x.1 ∧ ∀ e ∈ l, ¬ SetAccepts ah s.le e.2 init adv) ∨
      ∃ h a s1, (h, a) ∈ l ∧ SetAccepts ah s.le a init adv ∧ Looked ah init s s1 ∧
        ∃ y, handleConnection { s1 with le := { resolveUpdate ah s1.le init with extAdv := mapSet (resolveUpdate ah s1.le init).extAdv h { a with enable := false } } }
          (acceptedConn ah s.le init adv q) false = .ok y ∧
        x = (y.2.1, y.2.2 ++ [.send (.connectComplete init adv q), .setTerminated h (some y.1) a.numCompletedEvents]) := by
  induction l with
  | nil => intro s x h; cases h; exact .inl ⟨rfl, SameBut.refl _, fun e he => by cases he⟩
  | cons e l ih =>
    intro s x h
    obtain ⟨k, a⟩ := e
    simp only [extConnectAll] at h
    obtain ⟨⟨b, s1, o1⟩, hy, hx⟩ := Res.bind_eq_ok h
    rcases extConnect_cases hy with ⟨hb, ho, hs, hn⟩ | ⟨hb, h1, h2, h3, h4, y, hc, hx'⟩
    · simp only at hb ho hs
      subst hb ho
      simp only [Bool.false_eq_true, if_false] at hx
      have hl : Looked ah init s s1 := by
        rcases hs with rfl | rfl
        · exact ⟨SameBut.refl _, fun _ => rfl⟩
        · exact ⟨SameBut.update _ _ _, fun b => resolved_update ah s.le init b⟩
      have hacc : ∀ a, SetAccepts ah s1.le a init adv ↔ SetAccepts ah s.le a init adv := by
        intro a; unfold SetAccepts; rw [hl.connectAccepts, hl.2]
      rcases ih hx with ⟨g1, g2, g3⟩ | ⟨h', a', s2, g1, g2, g3, y, g4, g5⟩
      · refine .inl ⟨g1, hl.1.trans g2, ?_⟩
        intro e he
        rcases List.mem_cons.mp he with rfl | he
        · exact hn
        · rw [← hacc]; exact g3 e he
      · refine .inr ⟨h', a', s2, List.mem_cons_of_mem _ g1, (hacc a').mp g2, hl.trans g3, y, ?_, g5⟩
        have : acceptedConn ah s1.le init adv q = acceptedConn ah s.le init adv q := by
          unfold acceptedConn; rw [hl.2]
        rw [← this]; exact g4
    · simp only at hb hx'
      subst hb
      simp only [if_true] at hx
      cases hx
      exact .inr ⟨k, a, s, List.mem_cons_self .., ⟨h1, h2, h3, h4⟩, ⟨SameBut.refl _, fun _ => rfl⟩, y, hc, hx'⟩

/-! ### Effect of a step on the connections -/

/-- What a step does to the connections. -/
inductive ConnStep (s s' : State) (out : List Out) : Op → Prop
  | same {o : Op} (h1 : s'.conns = s.conns) (h2 : s'.links = s.links)
      (h3 : s'.lastHandle = s.lastHandle) (h4 : connectedOf out = []) : ConnStep s s' out o
  | add {rnd now p} (h : Nat) (c : LeConn) (last : Nat)
      (h1 : Conn.getUnusedHandle s.conns Conn.leStart Conn.leEnd s.lastHandle = some (h, last))
      (h2 : s'.conns = (h, c) :: s.conns) (h3 : s'.links = h :: s.links) (h4 : s'.lastHandle = last)
      (h5 : connectedOf out = [(h, c)])
      (h6 : p = .connect c.address c.own c.params ∧ c.role = .peripheral ∨
        p = .connectComplete c.own c.address c.params ∧ c.role = .central) :
      ConnStep s s' out (.receive rnd now p)
  | remove {o : Op} (h : Nat) (h0 : h ∈ s.links) (h1 : s'.conns = Conn.erase s.conns h)
      (h2 : s'.links = s.links.filter (· ≠ h)) (h3 : s'.lastHandle = s.lastHandle)
      (h4 : connectedOf out = []) : ConnStep s s' out o
  | reset (h1 : s' = {}) (h4 : connectedOf out = []) : ConnStep s s' out .reset

theorem connectedOf_append (a b : List Out) : connectedOf (a ++ b) = connectedOf a ++ connectedOf b := by
  simp [connectedOf]

theorem connectedOf_nil {l : List Out} (h : ∀ o ∈ l, ∀ k c, o ≠ .connected k c) : connectedOf l = [] := by
  simp only [connectedOf, List.filterMap_eq_nil_iff]
  intro o ho
  have := h o ho
  cases o <;> first | rfl | exact absurd rfl (this _ _)

theorem legacyReports_connected (ah : Hash) (s : Le.State) (p : LegacyPdu) (r : AddressWithType) :
    connectedOf (legacyReports ah s p r) = [] := by
  unfold legacyReports
  generalize s.legacyInUse = lu
  generalize s.extendedInUse = eu
  generalize wantsDirectedReport ah s p.type.directed r p.target = wd
  cases lu <;> cases eu <;> cases wd <;> rfl

theorem extReports_connected (p : ExtPdu) (r : AddressWithType) : connectedOf (extReports p r) = [] := by
  apply connectedOf_nil
  intro o ho k c hc
  subst hc
  simp [extReports] at ho

theorem removeConnection_cases {s s' : State} {h : Nat} (hr : removeConnection s h = some s') :
    h ∈ s.links ∧ s' = { s with conns := Conn.erase s.conns h, links := s.links.filter (· ≠ h) } := by
  simp only [removeConnection] at hr
  split at hr
  · rename_i hc; cases hr; exact ⟨by simpa using hc, rfl⟩
  · cases hr

theorem advOut_connected (m : List (UInt8 × ExtAdv)) (o : AdvOut) (k : Nat) (c : LeConn) :
    advOut m o ≠ .connected k c := by
  cases o <;> exact nofun

theorem step_conn {ah : Hash} {cfg : Config} {s : State} {o : Op} {x : State × Obs}
    (h : step ah cfg s o = .ok x) : ConnStep s x.1 x.2.out o := by
  cases o with
  | cmd c =>
    simp only [step] at h
    obtain ⟨y, hy, h⟩ := Res.bind_eq_ok h
    cases h
    simp only [command] at hy
    split at hy
    · cases hy
    · split at hy <;> (cases hy; exact .same rfl rfl rfl rfl)
  | receive rnd now p =>
    simp only [step] at h
    obtain ⟨y, hy, h⟩ := Res.bind_eq_ok h
    cases h
    cases p with
    | legacyAdv p =>
      obtain ⟨z, w, hw, hz, ho⟩ := receive_legacy_reports hy
      obtain ⟨u, v, hu, hv, rfl⟩ := receive_legacyAdv hy
      obtain ⟨l, hi, q, h1⟩ := scanLegacy_frame hu
      have hc : connectedOf (v.1, u.2 ++ v.2).2 = [] := by
        rw [ho, connectedOf_append, connectedOf_append]
        have e1 : connectedOf w = [] := by rcases hw with rfl | ⟨_, rfl⟩ <;> rfl
        have e2 : connectedOf z = [] := by rcases hz with rfl | ⟨_, _, rfl⟩ <;> rfl
        rw [e1, e2]
        split
        · rw [legacyReports_connected]; rfl
        · rfl
      rcases connectLegacy_frame hv with ⟨l', rfl⟩ | ⟨l', own, -, -, -, rfl⟩
      · exact .same (by simp only [h1]) (by simp only [h1]) (by simp only [h1]) hc
      · exact .same (by simp only [h1]) (by simp only [h1]) (by simp only [h1]) hc
    | extAdv p =>
      obtain ⟨u, v, hu, hv, rfl⟩ := receive_extAdv hy
      obtain ⟨l, hi, q, h1⟩ := scanExtended_frame hu
      obtain ⟨w, hw, ho⟩ := scanExtended_out hu
      have hc : connectedOf u.2 = [] := by
        rw [ho, connectedOf_append]
        have e1 : connectedOf w = [] := by rcases hw with rfl | ⟨-, _, rfl⟩ <;> rfl
        rw [e1]
        split
        · rw [extReports_connected]; rfl
        · rfl
      rcases connectExtended_frame hv with ⟨l', rfl⟩ | ⟨l', own, -, -, -, rfl⟩
      · exact .same (by simp only [h1]) (by simp only [h1]) (by simp only [h1])
          (by simp only [connectedOf_append, hc]; rfl)
      · exact .same (by simp only [h1]) (by simp only [h1]) (by simp only [h1])
          (by simp only [connectedOf_append, hc]; rfl)
    | periodic q =>
      simp only [receive, periodicPdu] at hy
      split at hy
      · cases hy; exact .same rfl rfl rfl rfl
      split at hy
      · cases hy; exact .same rfl rfl rfl rfl
      split at hy
      · split at hy
        · cases hy; exact .same rfl rfl rfl rfl
        · split at hy
          · cases hy
          · cases hy; exact .same rfl rfl rfl rfl
      · cases hy
        refine .same rfl rfl rfl (connectedOf_nil ?_)
        intro o ho k c hc
        subst hc
        simp at ho
    | connect init adv q =>
      simp only [receive, incomingConnect] at hy
      obtain ⟨⟨b, s1, o1⟩, hl, hx⟩ := Res.bind_eq_ok hy
      rcases legacyConnect_cases hl with ⟨hb, ho, ⟨r, hs⟩, -⟩ | ⟨hb, -, -, -, -, z, hz, hx'⟩
      · simp only at hb ho hs
        subst hb ho hs
        simp only [Bool.false_eq_true, if_false] at hx
        rcases extConnectAll_cases _ hx with ⟨g1, ⟨r', g2⟩, -⟩ | ⟨k, a, s2, -, -, ⟨⟨r', hs2⟩, -⟩, z, hz, rfl⟩
        · exact .same (by rw [g2]) (by rw [g2]) (by rw [g2]) (by rw [g1]; rfl)
        · obtain ⟨last, h1, -, -, h2, h3, h4, -, -, h5⟩ := handleConnection_cases hz
          subst hs2
          exact .add z.1 _ last h1 h2 h4 h3 (by simp [connectedOf_append, h5, connectedOf])
            (.inl ⟨rfl, rfl⟩)
      · simp only at hb hx'
        subst hb
        simp only [if_true] at hx
        cases hx
        cases hx'
        obtain ⟨last, h1, -, -, h2, h3, h4, -, -, h5⟩ := handleConnection_cases hz
        exact .add z.1 _ last h1 h2 h4 h3 (by simp [connectedOf_append, h5, connectedOf])
          (.inl ⟨rfl, rfl⟩)
    | connectComplete init adv q =>
      simp only [receive, incomingConnectComplete] at hy
      split at hy
      · cases hy; exact .same rfl rfl rfl rfl
      obtain ⟨z, hz, hx⟩ := Res.bind_eq_ok hy
      cases hx
      obtain ⟨last, h1, -, -, h2, h3, h4, -, -, h5⟩ := handleConnection_cases hz
      refine .add z.1 _ last h1 h2 h4 h3 ?_ (.inr ⟨rfl, rfl⟩)
      simp only [h5]
      cases s.le.extendedInUse <;> rfl
    | scan sc adv =>
      cases hy
      refine .same rfl rfl rfl (connectedOf_nil ?_)
      intro o ho k c hc
      subst hc
      simp only [incomingScan, List.mem_append, List.mem_flatMap, legacyScanned, extScanned] at ho
      rcases ho with ho | ⟨e, -, ho⟩
      · split at ho <;> simp at ho
      · split at ho <;> simp at ho
    | scanResponse adv a d =>
      cases hy
      simp only [scanResponse]
      split
      · exact .same rfl rfl rfl rfl
      split
      · exact .same rfl rfl rfl rfl
      · rename_i req _
        obtain ⟨hi, hh⟩ := remember_frame { s with le := resolveUpdate ah s.le adv, pending := mapErase s.pending adv } (.scanResponse adv a d)
        refine .same (by simp only [hh]) (by simp only [hh]) (by simp only [hh]) (connectedOf_nil ?_)
        intro o ho k c hc
        subst hc
        split at ho
        · simp only [responseReports, List.mem_append] at ho
          rcases ho with ho | ho
          · split at ho <;> simp at ho
          · split at ho <;> simp at ho
        · cases ho
    | link src dst b =>
      simp only [receive, incomingLink] at hy
      split at hy
      · cases hy; exact .same rfl rfl rfl rfl
      split at hy
      · cases hy; exact .same rfl rfl rfl rfl
      · split at hy
        · cases hy
        · rename_i hr
          obtain ⟨h0, rfl⟩ := removeConnection_cases hr
          cases hy
          exact .remove _ h0 rfl rfl rfl rfl
      · cases hy; exact .same rfl rfl rfl rfl
  | tick now =>
    simp only [step] at h
    obtain ⟨y, hy, h⟩ := Res.bind_eq_ok h
    cases h
    simp only [tick] at hy
    split at hy
    · cases hy
    · rename_i le out ha
      cases hy
      have hf : ∀ s : State, (scanTimers now s).conns = s.conns ∧ (scanTimers now s).links = s.links ∧
          (scanTimers now s).lastHandle = s.lastHandle := by
        intro s; unfold scanTimers; split <;> exact ⟨rfl, rfl, rfl⟩
      refine .same (hf _).1 (hf _).2.1 (hf _).2.2 (connectedOf_nil ?_)
      intro o ho k c hc
      subst hc
      rcases List.mem_append.mp ho with ho | ho
      · obtain ⟨z, -, hz⟩ := List.mem_map.mp ho
        exact advOut_connected _ _ _ _ hz
      · split at ho <;> simp at ho
  | sendAcl a b c d =>
    simp only [step, handleAcl] at h
    obtain ⟨y, hy, h⟩ := Res.bind_eq_ok h
    cases h
    split at hy
    · cases hy
    split at hy <;> (cases hy; exact .same rfl rfl rfl rfl)
  | disconnect a b c =>
    simp only [step, disconnect] at h
    obtain ⟨y, hy, h⟩ := Res.bind_eq_ok h
    cases h
    split at hy
    · cases hy; exact .same rfl rfl rfl rfl
    split at hy
    · cases hy
    · rename_i hr
      obtain ⟨h0, rfl⟩ := removeConnection_cases hr
      cases hy
      exact .remove _ h0 rfl rfl rfl rfl
  | reset =>
    cases h
    refine .reset rfl (connectedOf_nil ?_)
    intro o ho k c hc
    subst hc
    simp [reset, disconnectAll] at ho

/-- The links of the Rust link layer are the connections, handles are distinct and in
the range of LE handles. -/
structure ConnsOk (s : State) : Prop where
  sound : Conn.Sound s.conns Conn.leStart Conn.leEnd
  last : Conn.leStart ≤ s.lastHandle ∧ s.lastHandle ≤ Conn.leEnd
  links : ∀ h, h ∈ s.links ↔ h ∈ Conn.keys s.conns

theorem connsOk_reachable {ah : Hash} {cfg : Config} {s : State} (h : Reachable ah cfg s) : ConnsOk s := by
  refine h.induct (P := ConnsOk) ?_ ?_
  · intro a
    exact ⟨⟨List.nodup_nil, fun h hh => by cases hh⟩,
      show Conn.leStart ≤ Conn.leStart ∧ Conn.leStart ≤ Conn.leEnd by decide, fun h => Iff.rfl⟩
  · intro s o x _ hs hx
    cases step_conn hx with
    | same h1 h2 h3 =>
      refine ⟨?_, ?_, ?_⟩
      · rw [h1]; exact hs.sound
      · rw [h3]; exact hs.last
      · rw [h1, h2]; exact hs.links
    | add h c last h1 h2 h3 h4 =>
      obtain ⟨g1, g2, g3, g4, g5, -⟩ := Conn.unused_some _ _ _ _ hs.last.1 hs.last.2 _ _ h1
      refine ⟨⟨?_, ?_⟩, ?_, ?_⟩
      · rw [h2]; exact List.nodup_cons.mpr ⟨g1, hs.sound.nodup⟩
      · rw [h2]
        intro k hk
        rcases List.mem_cons.mp hk with rfl | hk
        · exact ⟨g2, g3⟩
        · exact hs.sound.range k hk
      · rw [h4]; exact ⟨g4, g5⟩
      · rw [h2, h3]
        intro k
        simp only [Conn.keys, List.map_cons, List.mem_cons]
        exact or_congr Iff.rfl (hs.links k)
    | remove h h0 h1 h2 h3 =>
      refine ⟨⟨?_, ?_⟩, ?_, ?_⟩
      · rw [h1, Conn.keys_erase]; exact hs.sound.nodup.filter _
      · rw [h1, Conn.keys_erase]; intro k hk; exact hs.sound.range k (List.mem_of_mem_filter hk)
      · rw [h3]; exact hs.last
      · rw [h1, h2, Conn.keys_erase]
        intro k
        simp only [List.mem_filter, hs.links k]
    | reset h1 =>
      rw [h1]
      exact ⟨⟨List.nodup_nil, fun h hh => by cases hh⟩, ⟨by decide, by decide⟩, fun h => Iff.rfl⟩

/-- With a free handle, a connection can be added. -/
theorem handleConnection_ok {s : State} (hok : ConnsOk s) (hl : s.conns.length < 256) (c : LeConn) (ch : Bool) :
    ∃ x, handleConnection s c ch = .ok x := by
  obtain ⟨⟨h, last⟩, hu⟩ := (Conn.unused_isSome_iff s.conns Conn.leStart Conn.leEnd s.lastHandle
    hok.last.1 hok.last.2 hok.sound).mpr (by simp only [Conn.leStart, Conn.leEnd]; omega)
  obtain ⟨g1, -⟩ := Conn.unused_some _ _ _ _ hok.last.1 hok.last.2 _ _ hu
  have hnl : ¬ s.links.contains h = true := by
    have : ¬ h ∈ s.links := by rw [hok.links]; exact g1
    simpa using this
  simp only [handleConnection, hu]
  rw [if_neg hnl]
  exact ⟨_, rfl⟩

theorem ConnsOk.with_le {s : State} (h : ConnsOk s) (le : Le.State) : ConnsOk { s with le := le } :=
  ⟨h.sound, h.last, h.links⟩

end Verif.Ll
