import Verif.Ll.RpaLemmas
import Verif.Ll.SpecRpa
/-!
# Addresses remembered in the resolving list
-/

namespace Verif.Ll
open Verif.Le

/-- `IsRpaThatMatchesIrk` is the specification. -/
theorem matchesIrk_iff (ah : Hash) (irk : Irk) (a : AddressWithType) :
    matchesIrk ah irk a = true ↔ a.type = .randomDevice ∧ RpaOf ah irk a.address := by
  have hb : a.address.extractLsb' 24 24 = BitVec.ofNat 24 (a.address.toNat / 2 ^ 24) := by
    apply BitVec.eq_of_toNat_eq
    rw [BitVec.extractLsb'_toNat, BitVec.toNat_ofNat, Nat.shiftRight_eq_div_pow]
  simp only [matchesIrk, Bool.and_eq_true, isRpa_iff, beq_iff_eq, RpaOf]
  rw [hb, ← BitVec.toNat_inj, BitVec.extractLsb'_toNat, Nat.shiftRight_eq_div_pow]
  simp only [Nat.pow_zero, Nat.div_one]
  constructor
  · rintro ⟨⟨h1, h2⟩, h3⟩; exact ⟨h1, h2, h3.symm⟩
  · rintro ⟨h1, h2, h3⟩; exact ⟨⟨h1, h2⟩, h3.symm⟩

theorem makeRpa_rpaOf (ah : Hash) (d : Draws) (irk : Irk) : RpaOf ah irk (makeRpa ah d irk) := by
  have h1 := makeRpa_toNat ah d irk
  have h2 := prand_toNat d
  have h3 := (ah irk (prand d)).isLt
  have h4 := (lowByte d).isLt
  have h5 : BitVec.ofNat 24 ((makeRpa ah d irk).toNat / 2 ^ 24) = prand d := by
    apply BitVec.eq_of_toNat_eq
    rw [BitVec.toNat_ofNat, h1]
    have := (prand d).isLt
    omega
  refine ⟨?_, ?_⟩
  · omega
  · rw [h5, h1]; omega

/-- Every remembered address is one of its key. -/
def RlGood (ah : Hash) (l : List RlEntry) : Prop :=
  ∀ e ∈ l, (∀ a, e.localRpa = some a → RpaOf ah e.localIrk a) ∧
    (∀ a, e.peerRpa = some a → RpaOf ah e.peerIrk a)

theorem generateRpa_good {ah : Hash} {rnd : Irk → Address} (hr : Genuine ah rnd)
    (a : AddressWithType) (sel : IrkSelection) (l : List RlEntry) (hl : RlGood ah l) :
    RlGood ah (generateRpa rnd a sel l).1 := by
  obtain ⟨d, rfl⟩ := hr
  induction l with
  | nil => exact hl
  | cons e l ih =>
    have he := hl e (List.mem_cons_self ..)
    have hl' : RlGood ah l := fun x hx => hl x (List.mem_cons_of_mem _ hx)
    simp only [generateRpa]
    split
    · cases sel
      · intro x hx
        rcases List.mem_cons.mp hx with rfl | hx
        · refine ⟨fun a ha => ?_, he.2⟩
          simp only [Option.some.injEq] at ha
          subst ha
          exact makeRpa_rpaOf ah d _
        · exact hl' x hx
      · exact hl
    · intro x hx
      rcases List.mem_cons.mp hx with rfl | hx
      · exact he
      · exact ih hl' x hx

theorem resolveUpdate_good (ah : Hash) (s : Le.State) (a : AddressWithType)
    (hl : RlGood ah s.resolvingList) : RlGood ah (resolveUpdate ah s a).resolvingList := by
  unfold resolveUpdate
  split
  · simp only
    generalize s.resolvingList = l at hl
    induction l with
    | nil => exact hl
    | cons e l ih =>
      have he := hl e (List.mem_cons_self ..)
      have hl' : RlGood ah l := fun x hx => hl x (List.mem_cons_of_mem _ hx)
      simp only [modifyFirst]
      split
      · rename_i hm
        intro x hx
        rcases List.mem_cons.mp hx with rfl | hx
        · refine ⟨he.1, fun b hb => ?_⟩
          simp only [Option.some.injEq] at hb
          subst hb
          exact ((matchesIrk_iff ah _ a).mp hm).2
        · exact hl' x hx
      · intro x hx
        rcases List.mem_cons.mp hx with rfl | hx
        · exact he
        · exact ih hl' x hx
  · exact hl

/-- The state with a good list. -/
abbrev Good (ah : Hash) (s : Le.State) : Prop := RlGood ah s.resolvingList

theorem scanRequest_good {ah : Hash} {cfg : Config} {rnd : Irk → Address} {s : State}
    {adv r : AddressWithType} {sc fr : Bool} {req : ScanRequest} {x : State × List Out}
    (hr : Genuine ah rnd) (hs : Good ah s.le)
    (h : scanRequest cfg rnd s adv r sc fr req = .ok x) : Good ah x.1.le := by
  unfold scanRequest at h
  split at h
  · cases h; exact hs
  split at h
  · cases h; exact hs
  split at h
  · cases h; exact hs
  split at h
  · cases h; exact hs
  split at h
  · cases h
  · cases h; exact generateRpa_good hr _ _ _ hs

theorem initiate_good {ah : Hash} {cfg : Config} {rnd : Irk → Address} {s : State}
    {adv target : AddressWithType} {c d : Bool} {x : State × List Out}
    (hr : Genuine ah rnd) (hs : Good ah s.le)
    (h : initiate ah cfg rnd s adv target c d = .ok x) : Good ah x.1.le := by
  have hu := resolveUpdate_good ah s.le adv hs
  simp only [initiate] at h
  split at h
  · cases h; exact hs
  split at h
  · cases h; exact hs
  split at h
  · cases h; exact hu
  split at h
  · cases h
  · cases h; exact generateRpa_good hr _ _ _ hu

theorem handleConnection_resolving {s : State} {c : LeConn} {ch : Bool}
    {x : Nat × State × List Out} (h : handleConnection s c ch = .ok x) :
    x.2.1.le.resolvingList = s.le.resolvingList := by
  unfold handleConnection at h
  split at h
  · cases h
  split at h
  · cases h
  · cases h; rfl

theorem legacyConnect_good {ah : Hash} {s : State} {init adv : AddressWithType}
    {q : LinkParams} {x : Bool × State × List Out} (hs : Good ah s.le)
    (h : legacyConnect ah s init adv q = .ok x) : Good ah x.2.1.le := by
  have hu := resolveUpdate_good ah s.le init hs
  simp only [legacyConnect] at h
  split at h
  · cases h; exact hs
  split at h
  · cases h; exact hs
  split at h
  · cases h; exact hs
  split at h
  · cases h; exact hu
  obtain ⟨y, hy, hx⟩ := Res.bind_eq_ok h
  cases hx
  have := handleConnection_resolving hy
  simp only [Good, this]
  exact hu

theorem extConnect_good {ah : Hash} {s : State} {h : UInt8} {a : ExtAdv}
    {init adv : AddressWithType} {q : LinkParams} {x : Bool × State × List Out}
    (hs : Good ah s.le) (he : extConnect ah s h a init adv q = .ok x) : Good ah x.2.1.le := by
  have hu := resolveUpdate_good ah s.le init hs
  simp only [extConnect] at he
  split at he
  · cases he; exact hs
  split at he
  · cases he; exact hs
  split at he
  · cases he; exact hs
  split at he
  · cases he; exact hu
  obtain ⟨y, hy, hx⟩ := Res.bind_eq_ok he
  cases hx
  have := handleConnection_resolving hy
  simp only [Good, this]
  exact hu

theorem extConnectAll_good {ah : Hash} {init adv : AddressWithType} {q : LinkParams}
    (l : List (UInt8 × ExtAdv)) : ∀ {s : State} {x : State × List Out}, Good ah s.le →
      extConnectAll ah init adv q l s = .ok x → Good ah x.1.le := by
  induction l with
  | nil => intro s x hs h; cases h; exact hs
  | cons e l ih =>
    intro s x hs h
    obtain ⟨k, a⟩ := e
    simp only [extConnectAll] at h
    obtain ⟨⟨b, s1, o1⟩, hy, hx⟩ := Res.bind_eq_ok h
    have h1 := extConnect_good hs hy
    cases b with
    | true => cases hx; exact h1
    | false => exact ih h1 hx

theorem receive_good {ah : Hash} {cfg : Config} {rnd : Irk → Address} {now : Nat} {s : State}
    {p : Packet} {x : State × List Out} (hr : Genuine ah rnd) (hs : Good ah s.le)
    (h : receive ah cfg rnd now s p = .ok x) : Good ah x.1.le := by
  cases p with
  | legacyAdv p =>
    have hu := resolveUpdate_good ah s.le p.adv hs
    simp only [receive] at h
    obtain ⟨y, hy, h⟩ := Res.bind_eq_ok h
    obtain ⟨z, hz, h⟩ := Res.bind_eq_ok h
    cases h
    have h1 : Good ah y.1.le := by
      simp only [scanLegacy] at hy
      split at hy
      · cases hy; exact hs
      split at hy
      · cases hy; exact hu
      obtain ⟨q, hq, hy⟩ := Res.bind_eq_ok hy
      cases hy
      have h2 := scanRequest_good hr (by rw [remember_le]; exact hu) hq
      exact h2
    simp only [connectLegacy] at hz
    split at hz
    · cases hz; exact h1
    · have h2 := initiate_good hr h1 hz; exact h2
  | extAdv p =>
    have hu := resolveUpdate_good ah s.le p.adv hs
    simp only [receive] at h
    obtain ⟨y, hy, h⟩ := Res.bind_eq_ok h
    obtain ⟨z, hz, h⟩ := Res.bind_eq_ok h
    cases h
    have h1 : Good ah y.1.le := by
      simp only [scanExtended] at hy
      split at hy
      · cases hy; exact hs
      split at hy
      · cases hy; exact hs
      split at hy
      · cases hy; exact hs
      split at hy
      · cases hy; exact hu
      obtain ⟨q, hq, hy⟩ := Res.bind_eq_ok hy
      cases hy
      have h2 := scanRequest_good hr (by rw [remember_le]; exact hu) hq
      exact h2
    simp only [connectExtended] at hz
    split at hz
    · cases hz; exact h1
    split at hz
    · cases hz; exact h1
    · have h2 := initiate_good hr h1 hz; exact h2
  | periodic p =>
    have hu := resolveUpdate_good ah s.le p.adv hs
    simp only [receive, periodicPdu] at h
    split at h
    · cases h; exact hs
    split at h
    · cases h; exact hs
    split at h
    · split at h
      · cases h; exact hu
      · split at h
        · cases h
        · cases h; exact hu
    · cases h; exact hu
  | connect init adv q =>
    simp only [receive, incomingConnect] at h
    obtain ⟨⟨b, s1, o1⟩, hy, hx⟩ := Res.bind_eq_ok h
    have h1 := legacyConnect_good hs hy
    cases b with
    | true => cases hx; exact h1
    | false => exact extConnectAll_good _ h1 hx
  | connectComplete init adv q =>
    have hu := resolveUpdate_good ah s.le adv hs
    simp only [receive, incomingConnectComplete] at h
    split at h
    · cases h; exact hs
    obtain ⟨y, hy, hx⟩ := Res.bind_eq_ok h
    cases hx
    have := handleConnection_resolving hy
    simp only [Good, this]
    exact hu
  | scan sc adv => cases h; exact resolveUpdate_good ah s.le sc hs
  | scanResponse adv a d =>
    have hu := resolveUpdate_good ah s.le adv hs
    cases h
    simp only [scanResponse]
    split
    · exact hs
    split
    · exact hs
    · simp only [remember_le]; exact hu
  | link a b c =>
    have := incomingLink_le (by simpa only [receive] using h)
    rw [this]; exact hs

theorem validateSets_good {ah : Hash} (cfg : Config) {rnd : Nat → Irk → Address}
    (hr : ∀ i, Genuine ah (rnd i)) (sets : List EnabledSet) :
    ∀ (i : Nat) (s : Le.State), Good ah s → Good ah (validateSets cfg rnd i sets s).1 := by
  induction sets with
  | nil => intro i s hs; exact hs
  | cons set sets ih =>
    intro i s hs
    simp only [validateSets, checkedThen]
    split
    · split
      · exact generateRpa_good (hr _) _ _ _ hs
      · apply ih; exact generateRpa_good (hr _) _ _ _ hs
    · exact hs

theorem modifyFirst_good {ah : Hash} (p : RlEntry → Bool) (m : PrivacyMode) {l : List RlEntry}
    (hs : RlGood ah l) : RlGood ah (modifyFirst p (fun e => { e with privacyMode := m }) l) := by
  induction l with
  | nil => exact hs
  | cons e l ih =>
    have he := hs e (List.mem_cons_self ..)
    have hl' : RlGood ah l := fun x hx => hs x (List.mem_cons_of_mem _ hx)
    simp only [modifyFirst]
    split
    · intro x hx
      rcases List.mem_cons.mp hx with rfl | hx
      · exact he
      · exact hl' x hx
    · intro x hx
      rcases List.mem_cons.mp hx with rfl | hx
      · exact he
      · exact ih hl' x hx

theorem runCmd_good {ah : Hash} {cfg : Config} {s s' : Le.State} {c : Cmd} {e : Status}
    (hg : (Op.cmd c).Genuine ah) (hs : Good ah s) (h : runCmd cfg s c = .ret s' e) : Good ah s' := by
  by_cases hw : c.writesResolving = false
  · simp only [Good, runCmd_resolving hw h]; exact hs
  · cases c
    case setExtAdvertisingEnable now rnd enable sets =>
      have h := runCmd_extEnable h
      simp only [setExtAdvertisingEnable] at h
      split at h
      · cases h; exact hs
      · split at h
        · cases h
        · cases h; exact hs
        · split at h
          · cases h; exact hs
          · split at h
            · cases h; exact hs
            · split at h
              · cases h; exact hs
              · have hv := validateSets_good cfg hg sets 0 { s with extendedInUse := true } hs
                split at h
                · cases h; exact hv
                · cases h; exact hv
    case addResolving t a pk lk =>
      obtain ⟨rfl, -⟩ := runCmd_ret_of h
      simp only [addResolving, checked, checkedThen]
      split
      · intro x hx
        rcases List.mem_append.mp hx with hx | hx
        · exact hs x hx
        · simp only [List.mem_singleton] at hx
          subst hx
          exact ⟨fun a h => by simp at h, fun a h => by simp at h⟩
      · exact hs
    case removeResolving t a =>
      obtain ⟨rfl, -⟩ := runCmd_ret_of h
      simp only [removeResolving, checked, checkedThen]
      split
      · intro x hx; exact hs x (List.mem_of_mem_eraseP hx)
      · exact hs
    case clearResolving =>
      obtain ⟨rfl, -⟩ := runCmd_ret_of h
      simp only [clearResolving, checked, checkedThen]
      split
      · intro x hx; cases hx
      · exact hs
    case setPrivacyMode t a m =>
      obtain ⟨rfl, -⟩ := runCmd_ret_of h
      simp only [setPrivacyMode, checked, checkedThen]
      split
      · exact modifyFirst_good _ _ hs
      · exact hs
    case setAdvertisingEnable now rnd en =>
      obtain ⟨rfl, -⟩ := runCmd_ret_of h
      unfold_handlers
      repeat' split
      all_goals first | exact hs | exact generateRpa_good (hg 0) _ _ _ hs
    case createConnection =>
      obtain ⟨rfl, -⟩ := runCmd_ret_of h
      unfold_handlers
      repeat' split
      all_goals first | exact hs | exact generateRpa_good hg _ _ _ hs
    case extendedCreateConnection =>
      obtain ⟨rfl, -⟩ := runCmd_ret_of h
      unfold_handlers
      repeat' split
      all_goals first | exact hs | exact generateRpa_good hg _ _ _ hs
    all_goals exact absurd rfl hw

theorem step_good {ah : Hash} {cfg : Config} {s : State} {o : Op} {x : State × Obs}
    (hg : o.Genuine ah) (hs : Good ah s.le) (h : step ah cfg s o = .ok x) : Good ah x.1.le := by
  cases o with
  | cmd c =>
    simp only [step] at h
    obtain ⟨y, hy, h⟩ := Res.bind_eq_ok h
    cases h
    simp only [command] at hy
    split at hy
    · cases hy
    · rename_i le e hr
      split at hy <;> (cases hy; exact runCmd_good hg hs hr)
  | receive rnd now p =>
    simp only [step] at h
    obtain ⟨y, hy, h⟩ := Res.bind_eq_ok h
    cases h
    exact receive_good hg hs hy
  | tick now =>
    simp only [step] at h
    obtain ⟨y, hy, h⟩ := Res.bind_eq_ok h
    cases h
    simp only [tick] at hy
    split at hy
    · cases hy
    · rename_i le out ha
      cases hy
      have he : runEnv s.le (.tick now) = .ret (scanning now le).1 out := by simp only [runEnv, ha]
      obtain ⟨m, -, hm, -⟩ := runEnv_tick he
      simp only [Good, hm]; exact hs
  | sendAcl a b c d =>
    simp only [step, handleAcl] at h
    obtain ⟨y, hy, h⟩ := Res.bind_eq_ok h
    cases h
    split at hy
    · cases hy
    split at hy <;> (cases hy; exact hs)
  | disconnect a b c =>
    simp only [step, disconnect] at h
    obtain ⟨y, hy, h⟩ := Res.bind_eq_ok h
    cases h
    split at hy
    · cases hy; exact hs
    split at hy
    · cases hy
    · rename_i hr
      cases hy
      simp only [removeConnection] at hr
      split at hr
      · cases hr; exact hs
      · cases hr
  | reset =>
    cases h
    intro e he; cases he

theorem run_good {ah : Hash} {cfg : Config} (ops : List Op) : ∀ (s : State) (y : State × List Obs),
    (∀ o ∈ ops, o.Genuine ah) → Good ah s.le → run ah cfg ops s = .ok y → Good ah y.1.le := by
  induction ops with
  | nil => intro s y _ hs h; cases h; exact hs
  | cons o ops ih =>
    intro s y hg hs h
    simp only [run] at h
    obtain ⟨x, hx, h⟩ := Res.bind_eq_ok h
    obtain ⟨z, hz, h⟩ := Res.bind_eq_ok h
    cases h
    exact ih x.1 z (fun o ho => hg o (List.mem_cons_of_mem _ ho))
      (step_good (hg o (List.mem_cons_self ..)) hs hx) hz

end Verif.Ll
