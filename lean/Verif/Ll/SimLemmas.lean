import Verif.Ll.Model
import Verif.Le.AdvLemmas
import Verif.Le.ListLemmas
/-!
# The link layer steps are steps of the command layer model

Every step of `Verif.Ll` changes the state of `Verif.Le` by a sequence of the steps
of that model, so its invariants hold here too.
-/

namespace Verif.Ll
open Verif.Le

@[simp] theorem Res.bind_ok {α β : Type} (a : α) (f : α → Res β) : (Res.ok a).bind f = f a := rfl

theorem Res.bind_eq_ok {α β : Type} {r : Res α} {f : α → Res β} {b : β} (h : r.bind f = .ok b) :
    ∃ a, r = .ok a ∧ f a = .ok b := by
  cases r with
  | ok a => exact ⟨a, rfl, h⟩
  | abort => cases h
  | hang => cases h
  | ub => cases h

/-- `b` is reached from `a` by steps of the command layer model. -/
def LeSteps (cfg : Config) (a b : Le.State) : Prop := ∃ ops, Le.run cfg ops a = some b

theorem LeSteps.refl (cfg : Config) (a : Le.State) : LeSteps cfg a a := ⟨[], rfl⟩

theorem run_append (cfg : Config) (o1 o2 : List Le.Op) (a : Le.State) :
    Le.run cfg (o1 ++ o2) a = (Le.run cfg o1 a).bind (Le.run cfg o2) := by
  induction o1 generalizing a with
  | nil => rfl
  | cons o o1 ih =>
    simp only [List.cons_append, Le.run]
    cases Le.step cfg a o with
    | ok s _ _ => exact ih s
    | ub => rfl
    | fatal => rfl

theorem LeSteps.trans {cfg : Config} {a b c : Le.State} (h1 : LeSteps cfg a b)
    (h2 : LeSteps cfg b c) : LeSteps cfg a c := by
  obtain ⟨o1, h1⟩ := h1
  obtain ⟨o2, h2⟩ := h2
  exact ⟨o1 ++ o2, by rw [run_append, h1]; exact h2⟩

theorem LeSteps.env {cfg : Config} {a b : Le.State} (e : Env) (out : List AdvOut)
    (h : runEnv a e = .ret b out) : LeSteps cfg a b :=
  ⟨[.env e], by simp [Le.run, Le.step, h]⟩

theorem LeSteps.cmd {cfg : Config} {a b : Le.State} (c : Cmd) (e : Status)
    (h : runCmd cfg a c = .ret b e) : LeSteps cfg a b :=
  ⟨[.cmd c], by simp [Le.run, Le.step, h]⟩

theorem modifyFirst_none {α : Type} {p : α → Bool} {f : α → α} {l : List α}
    (h : l.find? p = none) : modifyFirst p f l = l := by
  induction l with
  | nil => rfl
  | cons a l ih =>
    rw [List.find?_cons] at h
    split at h
    · cases h
    · rename_i hp
      simp [modifyFirst, hp, ih h]

theorem modifyFirst_irk (ah : Hash) (a : AddressWithType) (f : RlEntry → RlEntry) (e : RlEntry)
    (l : List RlEntry) (h : findResolving ah a l = some e) :
    modifyFirst (fun e' => matchesIrk ah e'.peerIrk a) f l =
      modifyFirst (fun e' => e'.peerIrk == e.peerIrk) f l := by
  induction l with
  | nil => cases h
  | cons x l ih =>
    simp only [findResolving, List.find?_cons] at h
    simp only [modifyFirst]
    split at h
    · rename_i hx
      cases h
      simp [hx]
    · rename_i hx
      have hm : matchesIrk ah e.peerIrk a = true := by
        have := List.find?_some h
        exact this
      have hne : (x.peerIrk == e.peerIrk) = false := by
        rw [beq_eq_false_iff_ne]
        intro heq
        rw [heq] at hx
        rw [hm] at hx
        cases hx
      rw [if_neg (by simp [hx]), if_neg (by simp [hne]), ih h]

theorem resolveUpdate_steps (cfg : Config) (ah : Hash) (s : Le.State) (a : AddressWithType) :
    LeSteps cfg s (resolveUpdate ah s a) := by
  unfold resolveUpdate
  split
  · cases hf : findResolving ah a s.resolvingList with
    | none =>
      rw [modifyFirst_none (by exact hf)]
      exact LeSteps.refl _ _
    | some e =>
      rw [modifyFirst_irk ah a _ e _ hf]
      exact LeSteps.env (.resolved a.address e.peerIrk) [] rfl
  · exact LeSteps.refl _ _

theorem generated_steps (cfg : Config) (rnd : Irk → Address) (s : Le.State) (r : AddressWithType) :
    LeSteps cfg s (generated rnd s r) := LeSteps.env (.rpaGenerated rnd r) [] rfl

theorem remember_le (s : State) (p : Packet) : (remember s p).le = s.le := by
  unfold remember; split <;> rfl

theorem scanRequest_steps {cfg : Config} {rnd : Irk → Address} {s : State} {adv r : AddressWithType}
    {sc fr : Bool} {req : ScanRequest} {x : State × List Out}
    (h : scanRequest cfg rnd s adv r sc fr req = .ok x) : LeSteps cfg s.le x.1.le := by
  unfold scanRequest at h
  split at h
  · cases h; exact LeSteps.refl _ _
  split at h
  · cases h; exact LeSteps.refl _ _
  split at h
  · cases h; exact LeSteps.refl _ _
  split at h
  · cases h; exact LeSteps.refl _ _
  split at h
  · cases h
  · cases h; exact generated_steps _ _ _ _

theorem scanLegacy_steps {ah : Hash} {cfg : Config} {rnd : Irk → Address} {now : Nat} {s : State}
    {p : LegacyPdu} {x : State × List Out} (h : scanLegacy ah cfg rnd now s p = .ok x) :
    LeSteps cfg s.le x.1.le := by
  simp only [scanLegacy] at h
  split at h
  · cases h; exact LeSteps.refl _ _
  split at h
  · cases h; exact resolveUpdate_steps _ _ _ _
  obtain ⟨q, hq, hx⟩ := Res.bind_eq_ok h
  cases hx
  have := scanRequest_steps hq
  rw [remember_le] at this
  exact (resolveUpdate_steps cfg ah s.le p.adv).trans this

theorem scanExtended_steps {ah : Hash} {cfg : Config} {rnd : Irk → Address} {now : Nat} {s : State}
    {p : ExtPdu} {x : State × List Out} (h : scanExtended ah cfg rnd now s p = .ok x) :
    LeSteps cfg s.le x.1.le := by
  simp only [scanExtended] at h
  split at h
  · cases h; exact LeSteps.refl _ _
  split at h
  · cases h; exact LeSteps.refl _ _
  split at h
  · cases h; exact LeSteps.refl _ _
  split at h
  · cases h; exact resolveUpdate_steps _ _ _ _
  obtain ⟨q, hq, hx⟩ := Res.bind_eq_ok h
  cases hx
  have := scanRequest_steps hq
  rw [remember_le] at this
  exact (resolveUpdate_steps cfg ah s.le p.adv).trans this

theorem initiate_steps {ah : Hash} {cfg : Config} {rnd : Irk → Address} {s : State}
    {adv target : AddressWithType} {c d : Bool} {x : State × List Out}
    (h : initiate ah cfg rnd s adv target c d = .ok x) : LeSteps cfg s.le x.1.le := by
  simp only [initiate] at h
  split at h
  · cases h; exact LeSteps.refl _ _
  split at h
  · cases h; exact LeSteps.refl _ _
  split at h
  · cases h; exact resolveUpdate_steps _ _ _ _
  split at h
  · cases h
  · rename_i own _
    cases h
    exact ((resolveUpdate_steps cfg ah s.le adv).trans (generated_steps cfg rnd _ _)).trans
      (LeSteps.env (.connectRequested adv own.address) [] rfl)

theorem handleConnection_steps {cfg : Config} {s : State} {c : LeConn} {ch : Bool}
    {x : Nat × State × List Out} (h : handleConnection s c ch = .ok x) :
    LeSteps cfg s.le x.2.1.le := by
  unfold handleConnection at h
  split at h
  · cases h
  split at h
  · cases h
  · cases h
    by_cases hc : c.own.address = s.le.initiator.initiatingAddress
    · simp only [if_pos hc]
      exact LeSteps.env .initiatingAddressCleared [] rfl
    · simp only [if_neg hc]
      exact LeSteps.refl _ _

theorem legacyConnect_steps {ah : Hash} {cfg : Config} {s : State} {init adv : AddressWithType}
    {q : LinkParams} {x : Bool × State × List Out} (h : legacyConnect ah s init adv q = .ok x) :
    LeSteps cfg s.le x.2.1.le := by
  simp only [legacyConnect] at h
  split at h
  · cases h; exact LeSteps.refl _ _
  split at h
  · cases h; exact LeSteps.refl _ _
  split at h
  · cases h; exact LeSteps.refl _ _
  split at h
  · cases h; exact resolveUpdate_steps _ _ _ _
  obtain ⟨y, hy, hx⟩ := Res.bind_eq_ok h
  cases hx
  exact ((resolveUpdate_steps cfg ah s.le init).trans (handleConnection_steps hy)).trans
    (LeSteps.env .legacyConnected [] rfl)

theorem resolveUpdate_extAdv (ah : Hash) (s : Le.State) (a : AddressWithType) :
    (resolveUpdate ah s a).extAdv = s.extAdv := by
  unfold resolveUpdate; split <;> rfl

theorem mapFind_mem {κ α : Type} [DecidableEq κ] {m : List (κ × α)} (hn : (m.map (·.1)).Nodup)
    {k : κ} {a : α} (h : (k, a) ∈ m) : mapFind m k = some a := by
  induction m with
  | nil => cases h
  | cons x m ih =>
    simp only [List.map_cons, List.nodup_cons, List.mem_map] at hn
    simp only [mapFind, List.find?_cons]
    rcases List.mem_cons.mp h with h | h
    · cases h; simp
    · have hk : (decide (x.1 = k)) = false := by
        simp only [decide_eq_false_iff_not]
        intro e
        exact hn.1 ⟨(k, a), h, by simp [e]⟩
      rw [hk]
      exact ih hn.2 h

theorem extConnect_steps {ah : Hash} {cfg : Config} {s : State} {h : UInt8} {a : ExtAdv}
    {init adv : AddressWithType} {q : LinkParams} {x : Bool × State × List Out}
    (hm : mapFind s.le.extAdv h = some a)
    (he : extConnect ah s h a init adv q = .ok x) : LeSteps cfg s.le x.2.1.le := by
  simp only [extConnect] at he
  split at he
  · cases he; exact LeSteps.refl _ _
  split at he
  · cases he; exact LeSteps.refl _ _
  split at he
  · cases he; exact LeSteps.refl _ _
  split at he
  · cases he; exact resolveUpdate_steps _ _ _ _
  obtain ⟨y, hy, hx⟩ := Res.bind_eq_ok he
  cases hx
  refine ((resolveUpdate_steps cfg ah s.le init).trans ?_).trans (handleConnection_steps hy)
  refine LeSteps.env (.extendedConnected h) [] ?_
  simp only [runEnv, resolveUpdate_extAdv, hm]

theorem extConnect_false {ah : Hash} {s : State} {h : UInt8} {a : ExtAdv}
    {init adv : AddressWithType} {q : LinkParams} {s' : State} {out : List Out}
    (he : extConnect ah s h a init adv q = .ok (false, s', out)) :
    s'.le.extAdv = s.le.extAdv := by
  simp only [extConnect] at he
  split at he
  · cases he; rfl
  split at he
  · cases he; rfl
  split at he
  · cases he; rfl
  split at he
  · cases he; exact resolveUpdate_extAdv _ _ _
  obtain ⟨y, hy, hx⟩ := Res.bind_eq_ok he
  cases hx

theorem extConnectAll_steps {ah : Hash} {cfg : Config} {init adv : AddressWithType} {q : LinkParams}
    (l : List (UInt8 × ExtAdv)) : ∀ {s : State} {x : State × List Out},
      (∀ e ∈ l, mapFind s.le.extAdv e.1 = some e.2) →
      extConnectAll ah init adv q l s = .ok x → LeSteps cfg s.le x.1.le := by
  induction l with
  | nil => intro s x _ h; cases h; exact LeSteps.refl _ _
  | cons e l ih =>
    intro s x hm h
    obtain ⟨k, a⟩ := e
    simp only [extConnectAll] at h
    obtain ⟨⟨b, s1, o1⟩, hy, hx⟩ := Res.bind_eq_ok h
    have h1 := extConnect_steps (cfg := cfg) (hm (k, a) (List.mem_cons_self ..)) hy
    cases b with
    | true => cases hx; exact h1
    | false =>
      refine h1.trans (ih ?_ hx)
      intro e he
      simp only
      rw [extConnect_false hy]
      exact hm e (List.mem_cons_of_mem _ he)

theorem legacyConnect_extAdv {ah : Hash} {s : State} {init adv : AddressWithType} {q : LinkParams}
    {x : Bool × State × List Out} (h : legacyConnect ah s init adv q = .ok x) :
    x.2.1.le.extAdv = s.le.extAdv := by
  simp only [legacyConnect] at h
  split at h
  · cases h; rfl
  split at h
  · cases h; rfl
  split at h
  · cases h; rfl
  split at h
  · cases h; exact resolveUpdate_extAdv _ _ _
  obtain ⟨y, hy, hx⟩ := Res.bind_eq_ok h
  cases hx
  unfold handleConnection at hy
  split at hy
  · cases hy
  split at hy
  · cases hy
  · cases hy; exact resolveUpdate_extAdv _ _ _

theorem incomingConnect_steps {ah : Hash} {cfg : Config} {s : State} {init adv : AddressWithType}
    {q : LinkParams} {x : State × List Out} (hn : (s.le.extAdv.map (·.1)).Nodup)
    (h : incomingConnect ah s init adv q = .ok x) : LeSteps cfg s.le x.1.le := by
  simp only [incomingConnect] at h
  obtain ⟨⟨b, s1, o1⟩, hy, hx⟩ := Res.bind_eq_ok h
  have h1 := legacyConnect_steps (cfg := cfg) hy
  cases b with
  | true => cases hx; exact h1
  | false =>
    refine h1.trans (extConnectAll_steps _ ?_ hx)
    intro e he
    have hk := legacyConnect_extAdv hy
    simp only at hk he ⊢
    rw [hk] at he ⊢
    exact mapFind_mem hn he

theorem incomingConnectComplete_steps {ah : Hash} {cfg : Config} {s : State}
    {init adv : AddressWithType} {q : LinkParams} {x : State × List Out}
    (h : incomingConnectComplete ah s init adv q = .ok x) : LeSteps cfg s.le x.1.le := by
  simp only [incomingConnectComplete] at h
  split at h
  · cases h; exact LeSteps.refl _ _
  obtain ⟨y, hy, hx⟩ := Res.bind_eq_ok h
  cases hx
  exact ((resolveUpdate_steps cfg ah s.le adv).trans (handleConnection_steps hy)).trans
    (LeSteps.env .initiatorConnected [] rfl)

theorem periodicPdu_steps {ah : Hash} {cfg : Config} {now : Nat} {s : State} {p : PeriodicPdu}
    {x : State × List Out} (h : periodicPdu ah now s p = .ok x) : LeSteps cfg s.le x.1.le := by
  simp only [periodicPdu] at h
  split at h
  · cases h; exact LeSteps.refl _ _
  split at h
  · cases h; exact LeSteps.refl _ _
  split at h
  · split at h
    · cases h; exact resolveUpdate_steps _ _ _ _
    · rename_i y hy
      split at h
      · cases h
      · cases h
        refine (resolveUpdate_steps cfg ah s.le p.adv).trans
          (LeSteps.env (.syncEstablished now
            ⟨(resolved ah s.le p.adv).toPeerType, (resolved ah s.le p.adv).address, p.sid⟩) [] ?_)
        simp only [runEnv, hy]
  · cases h; exact resolveUpdate_steps _ _ _ _

theorem incomingLink_le {s : State} {src dst : Address} {b : Body} {x : State × List Out}
    (h : incomingLink s src dst b = .ok x) : x.1.le = s.le := by
  simp only [incomingLink] at h
  split at h
  · cases h; rfl
  split at h
  · cases h; rfl
  · split at h
    · cases h
    · rename_i hr
      cases h
      simp only [removeConnection] at hr
      split at hr
      · cases hr; rfl
      · cases hr
  · cases h; rfl

theorem scanResponse_steps (ah : Hash) (cfg : Config) (s : State) (adv : AddressWithType)
    (a : Address) (d : List UInt8) : LeSteps cfg s.le (scanResponse ah s adv a d).1.le := by
  simp only [scanResponse]
  split
  · exact LeSteps.refl _ _
  split
  · exact LeSteps.refl _ _
  · simp only [remember_le]
    exact resolveUpdate_steps _ _ _ _

theorem receive_steps {ah : Hash} {cfg : Config} {rnd : Irk → Address} {now : Nat} {s : State}
    {p : Packet} {x : State × List Out} (hn : (s.le.extAdv.map (·.1)).Nodup)
    (h : receive ah cfg rnd now s p = .ok x) : LeSteps cfg s.le x.1.le := by
  cases p with
  | legacyAdv p =>
    simp only [receive] at h
    obtain ⟨y, hy, h⟩ := Res.bind_eq_ok h
    obtain ⟨z, hz, h⟩ := Res.bind_eq_ok h
    cases h
    refine (scanLegacy_steps hy).trans ?_
    simp only [connectLegacy] at hz
    split at hz
    · cases hz; exact LeSteps.refl _ _
    · have h1 := initiate_steps hz; exact h1
  | extAdv p =>
    simp only [receive] at h
    obtain ⟨y, hy, h⟩ := Res.bind_eq_ok h
    obtain ⟨z, hz, h⟩ := Res.bind_eq_ok h
    cases h
    refine (scanExtended_steps hy).trans ?_
    simp only [connectExtended] at hz
    split at hz
    · cases hz; exact LeSteps.refl _ _
    split at hz
    · cases hz; exact LeSteps.refl _ _
    · have h1 := initiate_steps hz; exact h1
  | periodic p => exact periodicPdu_steps h
  | connect init adv q => exact incomingConnect_steps hn h
  | connectComplete init adv q => exact incomingConnectComplete_steps h
  | scan sc adv => cases h; exact resolveUpdate_steps _ _ _ _
  | scanResponse adv a d => cases h; exact scanResponse_steps _ _ _ _ _ _
  | link a b c => rw [incomingLink_le h]; exact LeSteps.refl _ _

theorem scanTimers_le (now : Nat) (s : State) : (scanTimers now s).le = s.le := by
  unfold scanTimers; split <;> rfl

theorem tick_steps {cfg : Config} {now : Nat} {s : State} {x : State × List Out}
    (h : tick now s = .ok x) : LeSteps cfg s.le x.1.le := by
  simp only [tick] at h
  split at h
  · cases h
  · rename_i le out ha
    cases h
    refine LeSteps.env (.tick now) out ?_
    simp only [runEnv, ha]

theorem step_steps {ah : Hash} {cfg : Config} {s : State} {o : Op} {x : State × Obs}
    (hn : (s.le.extAdv.map (·.1)).Nodup) (h : step ah cfg s o = .ok x) :
    LeSteps cfg s.le x.1.le := by
  cases o with
  | cmd c =>
    simp only [step] at h
    obtain ⟨y, hy, h⟩ := Res.bind_eq_ok h
    cases h
    simp only [command] at hy
    split at hy
    · cases hy
    · rename_i le e hr
      split at hy <;> (cases hy; exact LeSteps.cmd c e hr)
  | receive rnd now p =>
    simp only [step] at h
    obtain ⟨y, hy, h⟩ := Res.bind_eq_ok h
    cases h
    exact receive_steps hn hy
  | tick now =>
    simp only [step] at h
    obtain ⟨y, hy, h⟩ := Res.bind_eq_ok h
    cases h
    exact tick_steps hy
  | sendAcl a b c d =>
    simp only [step, handleAcl] at h
    obtain ⟨y, hy, h⟩ := Res.bind_eq_ok h
    cases h
    split at hy
    · cases hy
    split at hy <;> (cases hy; exact LeSteps.refl _ _)
  | disconnect a b c =>
    simp only [step, disconnect] at h
    obtain ⟨y, hy, h⟩ := Res.bind_eq_ok h
    cases h
    split at hy
    · cases hy; exact LeSteps.refl _ _
    split at hy
    · cases hy
    · rename_i hr
      cases hy
      simp only [removeConnection] at hr
      split at hr
      · cases hr; exact LeSteps.refl _ _
      · cases hr
  | reset =>
    cases h
    exact LeSteps.env .reset [] rfl

theorem Le.Reachable.steps {cfg : Config} {a b : Le.State} (ha : Le.Reachable cfg a)
    (h : LeSteps cfg a b) : Le.Reachable cfg b := by
  obtain ⟨d, ops, hd⟩ := ha
  obtain ⟨ops', h⟩ := h
  exact ⟨d, ops ++ ops', by rw [run_append, hd]; exact h⟩

theorem step_reachable {ah : Hash} {cfg : Config} {s : State} {o : Op} {x : State × Obs}
    (hs : Le.Reachable cfg s.le) (h : step ah cfg s o = .ok x) : Le.Reachable cfg x.1.le := by
  obtain ⟨g, hg⟩ := advsOk_reachable hs
  exact Le.Reachable.steps hs (step_steps hg.keys h)

/-- Induction over a run. -/
theorem run_induct {ah : Hash} {cfg : Config} {P : State → Prop}
    (hstep : ∀ s o x, P s → step ah cfg s o = .ok x → P x.1) :
    ∀ (ops : List Op) (s : State) (y : State × List Obs), P s → run ah cfg ops s = .ok y → P y.1
  | [], s, y, hs, h => by cases h; exact hs
  | o :: ops, s, y, hs, h => by
    simp only [run] at h
    obtain ⟨x, hx, h⟩ := Res.bind_eq_ok h
    obtain ⟨z, hz, h⟩ := Res.bind_eq_ok h
    cases h
    exact run_induct hstep ops x.1 z (hstep s o x hs hx) hz

/-- The command layer state of a reachable state is reachable in `Verif.Le`. -/
theorem Reachable.le {ah : Hash} {cfg : Config} {s : State} (h : Reachable ah cfg s) :
    Le.Reachable cfg s.le := by
  obtain ⟨a, ops, obs, h⟩ := h
  exact run_induct (P := fun s => Le.Reachable cfg s.le) (fun s o x hs hx => step_reachable hs hx)
    ops (initial a) (s, obs) ⟨a, [], rfl⟩ h

/-- Invariants of the reachable states. -/
theorem Reachable.induct {ah : Hash} {cfg : Config} {P : State → Prop}
    (h0 : ∀ a, P (initial a))
    (hstep : ∀ s o x, Le.Reachable cfg s.le → P s → step ah cfg s o = .ok x → P x.1)
    {s : State} (h : Reachable ah cfg s) : P s := by
  obtain ⟨a, ops, obs, h⟩ := h
  exact (run_induct (P := fun s => Le.Reachable cfg s.le ∧ P s)
    (fun s o x hs hx => ⟨step_reachable hs.1 hx, hstep s o x hs.1 hs.2 hx⟩)
    ops (initial a) (s, obs) ⟨⟨a, [], rfl⟩, h0 a⟩ h).2

theorem Reachable.step {ah : Hash} {cfg : Config} {s : State} {o : Op} {x : State × Obs}
    (h : Reachable ah cfg s) (hx : Ll.step ah cfg s o = .ok x) : Reachable ah cfg x.1 := by
  obtain ⟨a, ops, obs, h⟩ := h
  refine ⟨a, ops ++ [o], obs ++ [x.2], ?_⟩
  have : ∀ (ops : List Op) (s0 s : State) (obs : List Obs), run ah cfg ops s0 = .ok (s, obs) →
      Ll.step ah cfg s o = .ok x → run ah cfg (ops ++ [o]) s0 = .ok (x.1, obs ++ [x.2]) := by
    intro ops
    induction ops with
    | nil => intro s0 s obs h hx; cases h; simp [run, hx]
    | cons o' ops ih =>
      intro s0 s obs h hx
      simp only [run] at h
      obtain ⟨y, hy, h⟩ := Res.bind_eq_ok h
      obtain ⟨z, hz, h⟩ := Res.bind_eq_ok h
      obtain ⟨z1, z2⟩ := z
      simp only [Res.ok.injEq, Prod.mk.injEq] at h
      obtain ⟨rfl, rfl⟩ := h
      simp [run, hy, ih _ _ _ hz hx]
  exact this ops _ s obs h hx

end Verif.Ll
