import Verif.Le.SpecAir
import Verif.Le.AdvLemmas
/-!
# What goes on air: helper lemmas (C107)
-/

namespace Verif.Le

/-! ### The keys of the resolving list -/

/-- The keys the resolving list holds for a peer. -/
def lookupKeys (l : List RlEntry) (t : PeerAddressType) (a : Address) : Option (Irk × Irk) :=
  match l with
  | [] => none
  | e :: l => if a = e.peerAddress ∧ t = e.peerType then some (e.peerIrk, e.localIrk) else lookupKeys l t a

theorem lookupKeys_content {l l' : List RlEntry} (h : l'.map RlEntry.content = l.map RlEntry.content)
    (t : PeerAddressType) (a : Address) : lookupKeys l' t a = lookupKeys l t a := by
  induction l generalizing l' with
  | nil => cases l' with
    | nil => rfl
    | cons e l' => cases h
  | cons e l ih =>
    cases l' with
    | nil => cases h
    | cons e' l' =>
      simp only [List.map_cons, List.cons.injEq, RlEntry.content, Prod.mk.injEq] at h
      obtain ⟨⟨h1, h2, h3, h4, -⟩, h5⟩ := h
      simp only [lookupKeys, h1, h2, h3, h4, ih h5]

theorem toPeerType_peerDevice (a : Address) (t : PeerAddressType) : (peerDeviceAddress a t).toPeerType = t := by
  cases t <;> rfl

theorem peerDevice_address (a : Address) (t : PeerAddressType) : (peerDeviceAddress a t).address = a := by
  cases t <;> rfl

theorem generateRpa_loc (rnd : Irk → Address) (a : Address) (t : PeerAddressType) (l : List RlEntry) :
    (generateRpa rnd (peerDeviceAddress a t) .loc l).2 = (lookupKeys l t a).map fun k => ⟨rnd k.2, .randomDevice⟩ := by
  induction l with
  | nil => rfl
  | cons e l ih =>
    simp only [generateRpa, lookupKeys, toPeerType_peerDevice, peerDevice_address]
    split
    · rfl
    · exact ih

theorem generateRpa_peer (rnd : Irk → Address) (a : Address) (t : PeerAddressType) (l : List RlEntry) :
    ((generateRpa rnd (peerDeviceAddress a t) .peer l).2.getD (peerDeviceAddress a t)) =
      directedTo t a (lookupKeys l t a) rnd := by
  induction l with
  | nil => cases t <;> rfl
  | cons e l ih =>
    simp only [generateRpa, lookupKeys, toPeerType_peerDevice, peerDevice_address]
    split
    · rfl
    · exact ih

theorem chooseAddress_some {own : OwnAddressType} {pub random : Address} {k : Option (Irk × Irk)} {rnd : Irk → Address}
    {x : AddressWithType} (h : chooseAddress own ⟨pub, .publicDevice⟩ ⟨random, .randomDevice⟩
      (k.map fun k => ⟨rnd k.2, .randomDevice⟩) = some x) : x = ownAddress own pub random k rnd := by
  cases own <;> cases k <;> simp only [chooseAddress, Option.map_none, Option.map_some, Option.getD_some, Option.getD_none] at h
  all_goals first
    | (cases h; rfl; done)
    | (split at h
       · cases h
       · cases h; rfl)

theorem lookupKeys_append (l : List RlEntry) (e : RlEntry) (t : PeerAddressType) (a : Address) (hn : e.key ∉ l.map RlEntry.key) :
    lookupKeys (l ++ [e]) t a = if t = e.peerType ∧ a = e.peerAddress then some (e.peerIrk, e.localIrk) else lookupKeys l t a := by
  induction l with
  | nil => simp only [List.nil_append, lookupKeys, and_comm]
  | cons x l ih =>
    simp only [List.map_cons, List.mem_cons, not_or] at hn
    simp only [List.cons_append, lookupKeys, ih hn.2]
    by_cases h1 : a = x.peerAddress ∧ t = x.peerType
    · rw [if_pos h1, if_pos h1, if_neg]
      rintro ⟨h2, h3⟩
      exact hn.1 (by simp only [RlEntry.key, Prod.mk.injEq]; exact ⟨h2 ▸ h1.2, h3 ▸ h1.1⟩)
    · rw [if_neg h1, if_neg h1]

theorem lookupKeys_none {l : List RlEntry} {t : PeerAddressType} {a : Address} (hn : (t, a) ∉ l.map RlEntry.key) :
    lookupKeys l t a = none := by
  induction l with
  | nil => rfl
  | cons x l ih =>
    simp only [List.map_cons, List.mem_cons, not_or, RlEntry.key, Prod.mk.injEq] at hn
    rw [lookupKeys, if_neg (fun h => hn.1 ⟨h.2, h.1⟩)]
    exact ih hn.2

theorem lookupKeys_eraseP (l : List RlEntry) (hn : (l.map RlEntry.key).Nodup) (t t' : PeerAddressType) (a a' : Address) :
    lookupKeys (l.eraseP (fun e => e.peerType == t && e.peerAddress == a)) t' a' =
      if t' = t ∧ a' = a then none else lookupKeys l t' a' := by
  induction l with
  | nil => simp [lookupKeys]
  | cons x l ih =>
    simp only [List.map_cons, List.nodup_cons] at hn
    by_cases hx : x.peerType = t ∧ x.peerAddress = a
    · rw [List.eraseP_cons_of_pos (by simp [hx])]
      obtain ⟨rfl, rfl⟩ := hx
      split
      · rename_i h
        obtain ⟨rfl, rfl⟩ := h
        exact lookupKeys_none hn.1
      · rename_i h
        rw [lookupKeys, if_neg (fun h' => h ⟨h'.2, h'.1⟩)]
    · rw [List.eraseP_cons_of_neg (by simpa using hx), lookupKeys, ih hn.2, lookupKeys]
      by_cases h1 : a' = x.peerAddress ∧ t' = x.peerType
      · rw [if_pos h1, if_pos h1, if_neg]
        rintro ⟨rfl, rfl⟩
        exact hx ⟨h1.2.symm, h1.1.symm⟩
      · rw [if_neg h1, if_neg h1]

/-! ### What the notes say about the state -/

/-- The notes on the legacy advertiser agree with its state. -/
structure LegacyTied (n : LegacyNotes) (a : LegacyAdv) : Prop where
  interval : a.interval = n.interval
  type : a.type = n.type
  own : a.ownAddressType = n.own
  peerType : a.peerAddressType = n.peerType
  peer : a.peerAddress = n.peer
  data : a.data = n.data
  policy : a.filterPolicy = n.policy
  response : a.scanResponse = n.response
  off : n.running = none → a.enable = false
  on : ∀ r, n.running = some r → a.enable = true ∧ a.advertisingAddress = r.adv ∧ a.targetAddress = r.target ∧
    a.nextEvent = r.last + n.interval * 625 ∧ a.timeout = if n.type = .advDirectIndHigh then some (r.since + 1280000) else none

/-- The notes on an advertising set agree with its state. -/
structure SetTied (n : SetNotes) (a : ExtAdv) : Prop where
  properties : a.properties = n.params.properties
  interval : a.interval = n.params.intervalMin
  own : a.ownAddressType = n.params.own
  peerType : a.peerAddressType = n.params.peerType
  peer : a.peerAddress = n.params.peer
  sid : a.sid = n.params.sid
  policy : a.filterPolicy = n.params.policy
  phys : a.primaryPhy = n.params.primaryPhy ∧ a.secondaryPhy = n.params.secondaryPhy
  random : a.randomAddress = n.random
  adv : a.advertisingAddress = n.adv
  target : a.targetAddress = n.target
  periodicInterval : a.periodicInterval = n.periodicInterval
  off : n.running = none → a.enable = false
  on : ∀ r, n.running = some r → a.enable = true ∧ a.nextEvent = r.since + r.sent * n.params.intervalMin * 625 ∧
    a.numCompletedEvents = r.sent % 256 ∧ a.maxEvents = r.maxEvents ∧
    a.timeout = if 0 < r.duration then some (r.since + 10000 * r.duration) else none
  noTrain : n.train = none → a.periodicEnable = false ∧ a.periodicLatch = false
  train : ∀ t, n.train = some t → a.periodicEnable = true ∧ a.periodicLatch = t.sending ∧
    a.nextPeriodicEvent = t.since + t.sent * n.periodicInterval * 625

/-- The notes on a set, if there are any, agree with the set, if there is one. -/
def OptTied : Option SetNotes → Option ExtAdv → Prop
  | none, none => True
  | some n, some a => SetTied n a
  | _, _ => False

/-- The notes agree with the state. -/
structure Tied (g : Notes) (s : State) : Prop where
  random : s.randomAddress = g.random
  keys : ∀ t a, lookupKeys s.resolvingList t a = g.keys t a
  legacy : LegacyTied g.legacy s.legacyAdv
  sets : ∀ h, OptTied (g.sets h) (mapFind s.extAdv h)

theorem tied_initial (a : Option Address) : Tied (Notes.initial a) (initial a) :=
  ⟨rfl, fun _ _ => rfl, ⟨rfl, rfl, rfl, rfl, rfl, rfl, rfl, rfl, fun _ => rfl, fun _ h => nomatch h⟩, fun _ => trivial⟩

theorem OptTied.some_left {n : SetNotes} {x : Option ExtAdv} (h : OptTied (some n) x) : ∃ a, x = some a ∧ SetTied n a := by
  cases x with
  | none => exact h.elim
  | some a => exact ⟨a, rfl, h⟩

theorem OptTied.some_right {n : Option SetNotes} {a : ExtAdv} (h : OptTied n (some a)) : ∃ m, n = some m ∧ SetTied m a := by
  cases n with
  | none => exact h.elim
  | some m => exact ⟨m, rfl, h⟩

theorem OptTied.none_right {n : Option SetNotes} (h : OptTied n none) : n = none := by
  cases n with
  | none => rfl
  | some m => exact h.elim

/-- Change one set and the notes on it. -/
theorem modify_tied {g : Notes} {m : List (UInt8 × ExtAdv)} {k : UInt8} {a a' : ExtAdv} {f : SetNotes → SetNotes}
    (hs : ∀ h, OptTied (g.sets h) (mapFind m h)) (hf : mapFind m k = some a)
    (ht : ∀ n, SetTied n a → SetTied (f n) a') (h : UInt8) :
    OptTied ((g.modify k f).sets h) (mapFind (mapSet m k a') h) := by
  rw [mapFind_mapSet]
  simp only [Notes.modify]
  have := hs h
  by_cases hk : k = h
  · subst hk
    rw [if_pos rfl, if_pos rfl]
    rw [hf] at this
    obtain ⟨n, hn, hna⟩ := this.some_right
    rw [hn]
    exact ht n hna
  · rw [if_neg hk, if_neg (fun e => hk e.symm)]
    exact this

/-! ### Frames -/

/-- The commands on the legacy advertiser that matter here. -/
def Cmd.writesLegacy : Cmd → Bool
  | .setAdvertisingParameters .. | .setAdvertisingData .. | .setScanResponseData .. | .setAdvertisingEnable .. => true
  | _ => false

theorem runCmd_legacyAdv {cfg : Config} {s s' : State} {c : Cmd} {e : Status}
    (hc : c.writesLegacy = false) (h : runCmd cfg s c = .ret s' e) : s'.legacyAdv = s.legacyAdv := by
  cases c
  case setExtAdvertisingEnable =>
    obtain ⟨m, r, x, rfl⟩ := extEnable_frame (runCmd_extEnable h); rfl
  all_goals first | (cases hc; done) | skip
  all_goals
    obtain ⟨rfl, -⟩ := runCmd_ret_of h
    unfold_handlers
    repeat' split
    all_goals first | rfl | (simp_all; done)

/-- Setting the random address. -/
def Cmd.isRandom : Cmd → Bool
  | .setRandomAddress _ => true
  | _ => false

theorem runCmd_random {cfg : Config} {s s' : State} {c : Cmd} {e : Status}
    (hc : c.isRandom = false) (h : runCmd cfg s c = .ret s' e) :
    s'.randomAddress = s.randomAddress := by
  cases c
  case setExtAdvertisingEnable =>
    obtain ⟨m, r, x, rfl⟩ := extEnable_frame (runCmd_extEnable h); rfl
  all_goals first | (cases hc; done) | skip
  all_goals
    obtain ⟨rfl, -⟩ := runCmd_ret_of h
    unfold_handlers
    repeat' split
    all_goals first | rfl | (simp_all; done)

/-! ### What an accepted command leaves in the notes -/

theorem accepted_random {pub : Address} {g : Notes} {c : Cmd} (hc : c.isRandom = false) :
    (accepted pub g c).random = g.random := by
  cases c
  case setAdvertisingEnable now rnd b => cases b <;> rfl
  case setExtAdvertisingEnable now rnd b sets => cases b <;> rfl
  case setPeriodicEnable now b adi h => cases b <;> rfl
  all_goals first | rfl | cases hc

theorem accepted_keys {pub : Address} {g : Notes} {c : Cmd} (hc : c.isResolving = false) :
    (accepted pub g c).keys = g.keys := by
  cases c
  case setAdvertisingEnable now rnd b => cases b <;> rfl
  case setExtAdvertisingEnable now rnd b sets => cases b <;> rfl
  case setPeriodicEnable now b adi h => cases b <;> rfl
  all_goals first | rfl | cases hc

theorem accepted_legacy {pub : Address} {g : Notes} {c : Cmd} (hc : c.writesLegacy = false) :
    (accepted pub g c).legacy = g.legacy := by
  cases c
  case setExtAdvertisingEnable now rnd b sets => cases b <;> rfl
  case setPeriodicEnable now b adi h => cases b <;> rfl
  all_goals first | rfl | cases hc

theorem accepted_sets {pub : Address} {g : Notes} {c : Cmd} (hc : c.writesAdv = false) :
    (accepted pub g c).sets = g.sets := by
  cases c
  case setAdvertisingEnable now rnd b => cases b <;> rfl
  all_goals first | rfl | cases hc

/-- The notes after a command. -/
def noteC (pub : Address) (g : Notes) (c : Cmd) (e : Status) : Notes := bif e == .success then accepted pub g c else g

theorem note_cmd (pub : Address) (g : Notes) (c : Cmd) (e : Status) : note pub g (.cmd c) (some e) = noteC pub g c e := by
  cases e <;> rfl

theorem noteC_ok (pub : Address) (g : Notes) (c : Cmd) : noteC pub g c .success = accepted pub g c := rfl

theorem noteC_err (pub : Address) (g : Notes) (c : Cmd) {e : Status} (h : e ≠ .success) : noteC pub g c e = g := by
  cases e <;> first | rfl | exact absurd rfl h

theorem noteC_cases (pub : Address) (g : Notes) (c : Cmd) (e : Status) : noteC pub g c e = accepted pub g c ∨ noteC pub g c e = g := by
  cases e <;> first | exact Or.inl rfl | exact Or.inr rfl


/-! ### Commands -/

theorem random_cmd {cfg : Config} {g : Notes} {s s' : State} {c : Cmd} {e : Status} (ht : s.randomAddress = g.random)
    (h : runCmd cfg s c = .ret s' e) : s'.randomAddress = (note cfg.publicAddress g (.cmd c) (some e)).random := by
  rw [note_cmd]
  by_cases hc : c.isRandom = false
  · rw [runCmd_random hc h, ht]
    rcases noteC_cases cfg.publicAddress g c e with h | h <;> rw [h]
    exact (accepted_random hc).symm
  · cases c
    case setRandomAddress a =>
      obtain ⟨rfl, rfl⟩ := runCmd_ret_of h
      simp only [setRandomAddress]
      rcases checked_cases _ s _ with ⟨hc, hr⟩ | ⟨hc, hr⟩ <;> rw [hr]
      · rfl
      · rw [noteC_err _ _ _ hc]; exact ht
    all_goals exact absurd rfl hc

theorem keys_cmd {cfg : Config} {g : Notes} {s s' : State} {c : Cmd} {e : Status}
    (hn : (s.resolvingList.map RlEntry.key).Nodup)
    (ht : ∀ t a, lookupKeys s.resolvingList t a = g.keys t a) (h : runCmd cfg s c = .ret s' e) (t : PeerAddressType) (a : Address) :
    lookupKeys s'.resolvingList t a = (note cfg.publicAddress g (.cmd c) (some e)).keys t a := by
  rw [note_cmd]
  by_cases hc : c.isResolving = false
  · rw [lookupKeys_content (runCmd_content hc h), ht]
    rcases noteC_cases cfg.publicAddress g c e with h | h <;> rw [h]
    rw [accepted_keys hc]
  · cases c
    case addResolving t' a' pk lk =>
      obtain ⟨rfl, rfl⟩ := runCmd_ret_of h
      simp only [addResolving]
      rcases checked_cases _ s _ with ⟨hc, hr⟩ | ⟨hc, hr⟩ <;> rw [hr]
      · simp only [firstError_cons, ne_eq, reduceCtorEq, not_false_eq_true, firstError_nil, decide_eq_false_iff_not] at hc
        have hk := hc.2.2.1
        simp only [List.any_eq_false, Bool.or_eq_true, Bool.and_eq_true, beq_iff_eq, not_or] at hk
        simp only
        rw [lookupKeys_append]
        · rw [ht]; rfl
        · intro hm
          obtain ⟨x, hx, he⟩ := List.mem_map.1 hm
          simp only [RlEntry.key, Prod.mk.injEq] at he
          exact (hk x hx).1 he
      · rw [noteC_err _ _ _ hc]; exact ht t a
    case removeResolving t' a' =>
      obtain ⟨rfl, rfl⟩ := runCmd_ret_of h
      simp only [removeResolving]
      rcases checked_cases _ s _ with ⟨hc, hr⟩ | ⟨hc, hr⟩ <;> rw [hr]
      · simp only
        rw [lookupKeys_eraseP _ hn, ht]; rfl
      · rw [noteC_err _ _ _ hc]; exact ht t a
    case clearResolving =>
      obtain ⟨rfl, rfl⟩ := runCmd_ret_of h
      simp only [clearResolving]
      rcases checked_cases _ s _ with ⟨hc, hr⟩ | ⟨hc, hr⟩ <;> rw [hr]
      · rfl
      · rw [noteC_err _ _ _ hc]; exact ht t a
    case setPrivacyMode t' a' m =>
      obtain ⟨rfl, rfl⟩ := runCmd_ret_of h
      simp only [setPrivacyMode]
      rcases checked_cases _ s _ with ⟨hc, hr⟩ | ⟨hc, hr⟩ <;> rw [hr]
      · show _ = g.keys t a
        rw [← ht]
        have hm : ∀ (l : List RlEntry) (p : RlEntry → Bool),
            lookupKeys (modifyFirst p (fun e => { e with privacyMode := m }) l) t a = lookupKeys l t a := by
          intro l p
          induction l with
          | nil => rfl
          | cons x l ih =>
            simp only [modifyFirst]
            split
            · rfl
            · simp only [lookupKeys, ih]
        exact hm _ _
      · rw [noteC_err _ _ _ hc]; exact ht t a
    all_goals exact absurd rfl hc

theorem isDirected_eq (t : AdvertisingType) : (t == .advDirectIndHigh || t == .advDirectIndLow) = t.isDirected := by
  cases t <;> rfl

theorem legacy_cmd {cfg : Config} {g : Notes} {s s' : State} {c : Cmd} {e : Status} (ht : Tied g s)
    (h : runCmd cfg s c = .ret s' e) : LegacyTied (note cfg.publicAddress g (.cmd c) (some e)).legacy s'.legacyAdv := by
  rw [note_cmd]
  have hl := ht.legacy
  by_cases hc : c.writesLegacy = false
  · rw [runCmd_legacyAdv hc h]
    rcases noteC_cases cfg.publicAddress g c e with h | h <;> rw [h]
    · rw [accepted_legacy hc]; exact hl
    · exact hl
  · cases c
    case setAdvertisingParameters p =>
      obtain ⟨rfl, rfl⟩ := runCmd_ret_of h
      simp only [setAdvertisingParameters, withLegacy]
      split
      · exact hl
      · rcases checked_cases _ _ _ with ⟨hc, hr⟩ | ⟨hc, hr⟩ <;> rw [hr]
        · rw [noteC_ok]
          simp only [firstError_cons, ne_eq, reduceCtorEq, not_false_eq_true, firstError_nil] at hc
          have hoff : g.legacy.running = none := by
            cases hr : g.legacy.running with
            | none => rfl
            | some r => have := (hl.on r hr).1; rw [hc.1] at this; cases this
          refine ⟨?_, rfl, rfl, rfl, rfl, hl.data, rfl, hl.response, fun _ => hc.1, fun r hr => ?_⟩
          · simp only [accepted]
            split <;> rfl
          · simp only [accepted] at hr; rw [hoff] at hr; cases hr
        · rw [noteC_err _ _ _ hc]; exact hl
    case setAdvertisingData d =>
      obtain ⟨rfl, rfl⟩ := runCmd_ret_of h
      simp only [setAdvertisingData, withLegacy]
      split
      · exact hl
      · rw [noteC_ok]
        exact ⟨hl.interval, hl.type, hl.own, hl.peerType, hl.peer, rfl, hl.policy, hl.response, hl.off, hl.on⟩
    case setScanResponseData d =>
      obtain ⟨rfl, rfl⟩ := runCmd_ret_of h
      simp only [setScanResponseData, withLegacy]
      split
      · exact hl
      · rw [noteC_ok]
        exact ⟨hl.interval, hl.type, hl.own, hl.peerType, hl.peer, hl.data, hl.policy, rfl, hl.off, hl.on⟩
    case setAdvertisingEnable now rnd b =>
      obtain ⟨rfl, rfl⟩ := runCmd_ret_of h
      simp only [setAdvertisingEnable, withLegacy]
      split
      · exact hl
      · cases b
        · rw [if_pos rfl, noteC_ok]
          exact ⟨hl.interval, hl.type, hl.own, hl.peerType, hl.peer, hl.data, hl.policy, hl.response, fun _ => rfl, fun r hr => nomatch hr⟩
        · rw [if_neg (by simp)]
          simp only [generateRpa_loc]
          split
          · exact hl
          · rename_i x hx
            rw [noteC_ok]
            have hx' := chooseAddress_some hx
            refine ⟨hl.interval, hl.type, hl.own, hl.peerType, hl.peer, hl.data, hl.policy, hl.response, fun h => (nomatch h), fun r hr => ?_⟩
            simp only [accepted, Option.some.injEq] at hr
            subst hr
            simp only [accepted]
            refine ⟨trivial, ?_, ?_, ?_, ?_⟩
            · rw [hx', hl.own, hl.peerType, hl.peer, ht.keys, ht.random]
            · rw [isDirected_eq, hl.type, generateRpa_peer, lookupKeys_content (generateRpa_content _ _ _ _), hl.peerType, hl.peer, ht.keys]
            · rw [hl.interval, Nat.mul_comm]
            · by_cases hh : g.legacy.type = .advDirectIndHigh
              · rw [if_pos (hl.type.trans hh)]; exact (if_pos hh).symm
              · rw [if_neg (fun h => hh (hl.type.symm.trans h))]; exact (if_neg hh).symm
    all_goals exact absurd rfl hc

/-! ### Commands on the advertising sets -/

theorem optTied_map {n : Option SetNotes} {x : Option ExtAdv} {f : SetNotes → SetNotes} {f' : ExtAdv → ExtAdv}
    (h : OptTied n x) (hf : ∀ n a, SetTied n a → SetTied (f n) (f' a)) : OptTied (n.map f) (x.map f') := by
  cases n <;> cases x
  · exact h
  · exact h.elim
  · exact h.elim
  · exact hf _ _ h

theorem setTied_stop {n : SetNotes} {a : ExtAdv} (h : SetTied n a) :
    SetTied { n with running := none } { a with enable := false } :=
  { h with off := fun _ => rfl, on := fun _ h => nomatch h }

/-- The same addresses, parameters and state of the events. -/
theorem setTied_data {n : SetNotes} {a : ExtAdv} (h : SetTied n a) (d s p : List UInt8) (x y z : Bool) :
    SetTied n { a with data := d, scanResponse := s, periodicData := p, partialData := x, partialScanResponse := y, partialPeriodicData := z } :=
  { h with }

/-- Sets that only differ in their data. -/
def SameButData (x y : Option ExtAdv) : Prop :=
  match x, y with
  | none, none => True
  | some a, some b => ∃ d s p u v w, b = { a with data := d, scanResponse := s, periodicData := p, partialData := u, partialScanResponse := v, partialPeriodicData := w }
  | _, _ => False

theorem SameButData.refl (x : Option ExtAdv) : SameButData x x := by
  cases x with
  | none => trivial
  | some a => exact ⟨_, _, _, _, _, _, rfl⟩

theorem SameButData.set {m : List (UInt8 × ExtAdv)} {k : UInt8} {a b : ExtAdv} (hf : mapFind m k = some a)
    (h : SameButData (some a) (some b)) (i : UInt8) : SameButData (mapFind m i) (mapFind (mapSet m k b) i) := by
  rw [mapFind_mapSet]
  by_cases hk : k = i
  · subst hk; rw [if_pos rfl, hf]; exact h
  · rw [if_neg hk]; exact .refl _

theorem SameButData.tied {n : Option SetNotes} {x y : Option ExtAdv} (h : SameButData x y) (ht : OptTied n x) : OptTied n y := by
  cases n <;> cases x <;> cases y <;> first | trivial | exact h.elim | exact ht.elim | skip
  obtain ⟨d, s, p, u, v, w, rfl⟩ := h
  exact setTied_data ht d s p u v w

/-- The commands that give a set its data. -/
def Cmd.writesData : Cmd → Bool
  | .setExtAdvertisingData .. | .setExtScanResponseData .. | .setPeriodicData .. => true
  | _ => false

theorem runCmd_data {cfg : Config} {s s' : State} {c : Cmd} {e : Status} (hc : c.writesData = true)
    (h : runCmd cfg s c = .ret s' e) (i : UInt8) : SameButData (mapFind s.extAdv i) (mapFind s'.extAdv i) := by
  cases c
  case setExtAdvertisingData k op d =>
    obtain ⟨rfl, -⟩ := runCmd_ret_of h
    simp only [setExtAdvertisingData, withExtended]
    split
    · exact .refl _
    · split
      · exact .refl _
      · rename_i adv hf
        simp only [checkedThen]
        split
        · split
          · exact .refl _
          · split
            · exact .set hf ⟨_, _, _, _, _, _, rfl⟩ i
            · split
              · exact .set hf ⟨_, _, _, _, _, _, rfl⟩ i
              · exact .set hf ⟨_, _, _, _, _, _, rfl⟩ i
        · exact .refl _
  case setExtScanResponseData k op d =>
    obtain ⟨rfl, -⟩ := runCmd_ret_of h
    simp only [setExtScanResponseData, withExtended]
    split
    · exact .refl _
    · split
      · exact .refl _
      · rename_i adv hf
        simp only [checkedThen]
        split
        · split
          · exact .refl _
          · split
            · exact .set hf ⟨_, _, _, _, _, _, rfl⟩ i
            · split
              · exact .set hf ⟨_, _, _, _, _, _, rfl⟩ i
              · exact .set hf ⟨_, _, _, _, _, _, rfl⟩ i
        · exact .refl _
  case setPeriodicData k op d =>
    obtain ⟨rfl, -⟩ := runCmd_ret_of h
    simp only [setPeriodicData]
    split
    · exact .refl _
    · rename_i adv hf
      simp only [checkedThen]
      split
      · split
        · exact .refl _
        · split
          · exact .set hf ⟨_, _, _, _, _, _, rfl⟩ i
          · split
            · exact .set hf ⟨_, _, _, _, _, _, rfl⟩ i
            · exact .set hf ⟨_, _, _, _, _, _, rfl⟩ i
      · exact .refl _
  all_goals cases hc

theorem accepted_data {pub : Address} {g : Notes} {c : Cmd} (hc : c.writesData = true) : accepted pub g c = g := by
  cases c <;> first | rfl | cases hc

theorem checkHandles_nodup {m : List (UInt8 × ExtAdv)} (sets : List EnabledSet) : ∀ used : List UInt8,
    checkHandles m used sets = .ok → (sets.map (·.handle)).Nodup ∧ ∀ e ∈ sets, e.handle ∉ used := by
  induction sets with
  | nil => intro used _; exact ⟨List.nodup_nil, fun e h => absurd h List.not_mem_nil⟩
  | cons x sets ih =>
    intro used h
    simp only [checkHandles] at h
    split at h
    · cases h
    · split at h
      · cases h
      · rename_i hu
        split at h
        · cases h
        · obtain ⟨i1, i2⟩ := ih _ h
          refine ⟨?_, ?_⟩
          · rw [List.map_cons, List.nodup_cons]
            refine ⟨?_, i1⟩
            intro hm
            obtain ⟨e, he, hx⟩ := List.mem_map.1 hm
            exact i2 e he (by rw [hx]; exact List.mem_cons_self)
          · intro e he
            rcases List.mem_cons.1 he with rfl | he
            · simpa using hu
            · exact fun hm => i2 e he (List.mem_cons_of_mem _ hm)

theorem checkHandles_fail {m : List (UInt8 × ExtAdv)} {e : Status} (sets : List EnabledSet) : ∀ used : List UInt8,
    checkHandles m used sets = .fail e → e ≠ .success := by
  induction sets with
  | nil => intro used h; cases h
  | cons x sets ih =>
    intro used h
    simp only [checkHandles] at h
    split at h
    · cases h
    · split at h
      · cases h; simp
      · split at h
        · cases h; simp
        · exact ih _ h

theorem place_none {h : UInt8} (sets : List EnabledSet) : ∀ i, h ∉ sets.map (·.handle) → place h i sets = none := by
  induction sets with
  | nil => intro i _; rfl
  | cons x sets ih =>
    intro i hn
    simp only [List.map_cons, List.mem_cons, not_or] at hn
    rw [place, if_neg (fun e => hn.1 e.symm)]
    exact ih _ hn.2

/-- The addresses a set gets when it is validated. -/
def addressed (pub : Address) (rnd : Nat → Irk → Address) (l : List RlEntry) (i : Nat) (a : ExtAdv) : ExtAdv :=
  let k := lookupKeys l a.peerAddressType a.peerAddress
  { a with
    advertisingAddress := ownAddress a.ownAddressType pub (a.randomAddress.getD 0) k (rnd (2 * i)),
    targetAddress := if a.properties.directed then directedTo a.peerAddressType a.peerAddress k (rnd (2 * i + 1)) else a.targetAddress }

theorem addressed_list {pub : Address} {rnd : Nat → Irk → Address} {l l' : List RlEntry}
    (h : l'.map RlEntry.content = l.map RlEntry.content) (i : Nat) (a : ExtAdv) :
    addressed pub rnd l' i a = addressed pub rnd l i a := by
  simp only [addressed, lookupKeys_content h]

theorem validateSets_place (cfg : Config) (rnd : Nat → Irk → Address) (sets : List EnabledSet) : ∀ (i : Nat) (s : State),
    (sets.map (·.handle)).Nodup → (∀ e ∈ sets, (mapFind s.extAdv e.handle).isSome = true) →
    (validateSets cfg rnd i sets s).2 = .success → ∀ h,
    mapFind (validateSets cfg rnd i sets s).1.extAdv h = match place h i sets with
      | none => mapFind s.extAdv h
      | some (j, _) => (mapFind s.extAdv h).map (addressed cfg.publicAddress rnd s.resolvingList j) := by
  induction sets with
  | nil => intro i s _ _ _ h; rfl
  | cons x sets ih =>
    intro i s hn hall hok h
    obtain ⟨a, hf⟩ := Option.isSome_iff_exists.1 (hall x List.mem_cons_self)
    rw [List.map_cons, List.nodup_cons] at hn
    simp only [validateSets, checkedThen, hf, Option.getD_some, generateRpa_loc] at hok ⊢
    split at hok
    · rename_i hc
      simp only [if_pos hc]
      split at hok
      · cases hok
      · rename_i y hy
        have hy' := chooseAddress_some hy
        have hall' : ∀ b : ExtAdv, ∀ e ∈ sets, (mapFind (mapSet s.extAdv x.handle b) e.handle).isSome = true := by
          intro b e he
          rw [mapFind_mapSet]
          split
          · rfl
          · exact hall e (List.mem_cons_of_mem _ he)
        rw [ih (i + 1) _ hn.2 (hall' _) hok h]
        simp only [mapFind_mapSet, place]
        by_cases hx : x.handle = h
        · rw [if_pos hx, if_pos hx, place_none sets _ (hx ▸ hn.1)]
          subst hx
          simp only [hf, Option.map_some, Option.some.injEq, addressed, ← hy']
          rw [generateRpa_peer, lookupKeys_content (generateRpa_content _ _ _ _)]
        · rw [if_neg hx, if_neg hx]
          cases place h (i + 1) sets with
          | none => rfl
          | some v => exact congrArg (fun f => Option.map f _) (funext fun b => addressed_list (generateRpa_content _ _ _ _) v.1 b)
    · rename_i hc
      exact absurd hok hc

theorem enableSets_place (now : Nat) (sets : List EnabledSet) : ∀ (i : Nat) (m : List (UInt8 × ExtAdv)),
    (sets.map (·.handle)).Nodup → (∀ e ∈ sets, (mapFind m e.handle).isSome = true) → ∀ h,
    mapFind (enableSets now sets m) h = match place h i sets with
      | none => mapFind m h
      | some (_, e) => (mapFind m h).map (fun a => enableSet now a e) := by
  induction sets with
  | nil => intro i m _ _ h; rfl
  | cons x sets ih =>
    intro i m hn hall h
    obtain ⟨a, hf⟩ := Option.isSome_iff_exists.1 (hall x List.mem_cons_self)
    rw [List.map_cons, List.nodup_cons] at hn
    have hall' : ∀ b : ExtAdv, ∀ e ∈ sets, (mapFind (mapSet m x.handle b) e.handle).isSome = true := by
      intro b e he
      rw [mapFind_mapSet]
      split
      · rfl
      · exact hall e (List.mem_cons_of_mem _ he)
    rw [enableSets, ih (i + 1) _ hn.2 (hall' _) h]
    simp only [mapFind_mapSet, place]
    by_cases hx : x.handle = h
    · rw [if_pos hx, if_pos hx, place_none sets _ (hx ▸ hn.1)]
      subst hx
      simp only [hf, Option.map_some, Option.getD_some]
    · rw [if_neg hx, if_neg hx]

theorem disableSets_mem (sets : List EnabledSet) : ∀ (m : List (UInt8 × ExtAdv)),
    (∀ e ∈ sets, (mapFind m e.handle).isSome = true) → ∀ h,
    mapFind (disableSets sets m) h = if h ∈ sets.map (·.handle) then (mapFind m h).map (fun a => { a with enable := false }) else mapFind m h := by
  induction sets with
  | nil => intro m _ h; rfl
  | cons x sets ih =>
    intro m hall h
    obtain ⟨a, hf⟩ := Option.isSome_iff_exists.1 (hall x List.mem_cons_self)
    have hall' : ∀ b : ExtAdv, ∀ e ∈ sets, (mapFind (mapSet m x.handle b) e.handle).isSome = true := by
      intro b e he
      rw [mapFind_mapSet]
      split
      · rfl
      · exact hall e (List.mem_cons_of_mem _ he)
    rw [disableSets, ih _ (hall' _) h]
    simp only [mapFind_mapSet, List.map_cons, List.mem_cons]
    by_cases hx : x.handle = h
    · subst hx
      simp only [if_pos rfl, hf, true_or, Option.getD_some, Option.map_some]
      split <;> rfl
    · have hx' : ¬ h = x.handle := fun e => hx e.symm
      simp only [if_neg hx, hx', false_or]

/-- A refused command that lists one set leaves the sets alone. -/
theorem validateSets_one {cfg : Config} {rnd : Nat → Irk → Address} {e : EnabledSet} {s : State}
    (h : (validateSets cfg rnd 0 [e] s).2 ≠ .success) : (validateSets cfg rnd 0 [e] s).1.extAdv = s.extAdv := by
  simp only [validateSets, checkedThen] at h ⊢
  split
  · rename_i hc
    rw [if_pos hc] at h
    split
    · rfl
    · rename_i x hx
      simp only [hx] at h
      exact absurd rfl h
  · rfl

theorem setTied_start {cfg : Config} {now : Nat} {rnd : Nat → Irk → Address} {keys : PeerAddressType → Address → Option (Irk × Irk)}
    {l : List RlEntry} (hk : ∀ t a, lookupKeys l t a = keys t a) (i : Nat) (e : EnabledSet) {n : SetNotes} {a : ExtAdv} (h : SetTied n a) :
    SetTied (n.start cfg.publicAddress now rnd keys i e) (enableSet now (addressed cfg.publicAddress rnd l i a) e) := by
  refine { h with adv := ?_, target := ?_, off := fun h => (nomatch h), on := ?_, noTrain := ?_, train := ?_ }
  · simp only [enableSet, addressed, SetNotes.start, h.own, h.random, h.peerType, h.peer, hk]
  · simp only [enableSet, addressed, SetNotes.start, h.properties, h.target, h.peerType, h.peer, hk]
  · intro r hr
    simp only [SetNotes.start, Option.some.injEq] at hr
    subst hr
    simp [enableSet]
  · intro ht
    simp only [SetNotes.start, Option.map_eq_none_iff] at ht
    exact ⟨(h.noTrain ht).1, (h.noTrain ht).1⟩
  · intro t ht
    simp only [SetNotes.start, Option.map_eq_some_iff] at ht
    obtain ⟨t', ht', rfl⟩ := ht
    obtain ⟨h1, h2, h3⟩ := h.train t' ht'
    exact ⟨h1, h1, h3⟩

theorem sets_enable {cfg : Config} {g : Notes} {s s' : State} {now : Nat} {rnd : Nat → Irk → Address} {b : Bool} {sets : List EnabledSet}
    {e : Status} (ht : Tied g s) (h : setExtAdvertisingEnable cfg now rnd s b sets = some (s', e))
    (hu : ¬ Torn (.cmd (.setExtAdvertisingEnable now rnd b sets)) (some e)) (i : UInt8) :
    OptTied ((noteC cfg.publicAddress g (.setExtAdvertisingEnable now rnd b sets) e).sets i) (mapFind s'.extAdv i) := by
  simp only [setExtAdvertisingEnable] at h
  split at h
  · cases h; exact ht.sets i
  · split at h
    · cases h
    · rename_i hch
      cases h
      rw [noteC_err _ _ _ (checkHandles_fail sets [] hch)]
      exact ht.sets i
    · rename_i hch
      have hall := checkHandles_ok sets [] hch
      have hnd := (checkHandles_nodup sets [] hch).1
      split at h
      · rename_i hb
        obtain ⟨rfl, rfl⟩ := hb
        cases h
        simp only [noteC_ok, accepted, true_or, if_true]
        rw [mapFind_map (fun a : ExtAdv => { a with enable := false })]
        exact optTied_map (ht.sets i) fun n a h => setTied_stop h
      · split at h
        · cases h; exact ht.sets i
        · rename_i hs0
          split at h
          · rename_i hb
            subst hb
            cases h
            simp only [noteC_ok, accepted, hs0, false_or]
            rw [disableSets_mem sets _ hall]
            split
            · exact optTied_map (ht.sets i) fun n a h => setTied_stop h
            · exact ht.sets i
          · rename_i hb
            have hb : b = true := by simpa using hb
            subst hb
            split at h
            · rename_i hok
              cases h
              have hv := validateSets_place cfg rnd sets 0 { s with extendedInUse := true } hnd hall hok
              have hall' : ∀ e ∈ sets, (mapFind (validateSets cfg rnd 0 sets { s with extendedInUse := true }).1.extAdv e.handle).isSome = true := by
                intro e he
                rw [hv]
                split
                · exact hall e he
                · rw [Option.isSome_map]; exact hall e he
              simp only [noteC_ok, accepted]
              rw [enableSets_place now sets 0 _ hnd hall', hv]
              split
              · rename_i j e' hp
                simp only [hp, Option.map_map]
                exact optTied_map (ht.sets i) fun n a h => setTied_start ht.keys j e' h
              · rename_i hp
                simp only [hp]
                exact ht.sets i
            · rename_i hbad
              cases h
              rw [noteC_err _ _ _ hbad]
              match sets, hs0 with
              | [x], _ => rw [validateSets_one hbad]; exact ht.sets i
              | x :: y :: l, _ => exact absurd ⟨now, rnd, x, y, l, rfl, by simpa using hbad⟩ hu

theorem sets_cmd {cfg : Config} {g : Notes} {s s' : State} {c : Cmd} {e : Status} (ht : Tied g s)
    (h : runCmd cfg s c = .ret s' e) (hu : ¬ Torn (.cmd c) (some e)) (i : UInt8) :
    OptTied ((noteC cfg.publicAddress g c e).sets i) (mapFind s'.extAdv i) := by
  have hs := ht.sets
  by_cases hw : c.writesAdv = false
  · rw [runCmd_extAdv hw h]
    rcases noteC_cases cfg.publicAddress g c e with h | h <;> rw [h]
    · rw [accepted_sets hw]; exact hs i
    · exact hs i
  · by_cases hd : c.writesData = true
    · have hn : noteC cfg.publicAddress g c e = g := by
        rcases noteC_cases cfg.publicAddress g c e with h | h
        · rw [h, accepted_data hd]
        · exact h
      rw [hn]
      exact (runCmd_data hd h i).tied (hs i)
    · cases c
      case setExtAdvertisingEnable => exact sets_enable ht (runCmd_extEnable h) hu i
      case setAdvertisingSetRandomAddress k a =>
        obtain ⟨rfl, rfl⟩ := runCmd_ret_of h
        simp only [setAdvertisingSetRandomAddress]
        split
        · exact hs i
        · rename_i adv hf
          rcases checked_cases _ _ _ with ⟨hc, hr⟩ | ⟨hc, hr⟩ <;> rw [hr]
          · exact modify_tied (a' := { adv with randomAddress := some a }) (f := fun n => { n with random := some a }) hs hf
              (fun n hn => { hn with random := rfl }) i
          · rw [noteC_err _ _ _ hc]; exact hs i
      case setExtAdvertisingParameters k p =>
        obtain ⟨rfl, rfl⟩ := runCmd_ret_of h
        simp only [setExtAdvertisingParameters, withExtended]
        split
        · exact hs i
        · rcases checked_cases _ _ _ with ⟨hc, hr⟩ | ⟨hc, hr⟩ <;> rw [hr]
          · simp only [extParamChecks, firstError_cons, ne_eq, reduceCtorEq, not_false_eq_true, firstError_nil] at hc
            have hoff := hc.2.1
            rw [noteC_ok]
            simp only [accepted, mapFind_mapSet]
            by_cases hk : k = i
            · subst hk
              rw [if_pos rfl, if_pos rfl]
              have := hs k
              cases hf : mapFind s.extAdv k with
              | none =>
                rw [hf] at this
                rw [this.none_right]
                exact ⟨rfl, rfl, rfl, rfl, rfl, rfl, rfl, ⟨rfl, rfl⟩, rfl, rfl, rfl, rfl, fun _ => rfl, fun _ h => (nomatch h), fun _ => ⟨rfl, rfl⟩, fun _ h => (nomatch h)⟩
              | some a =>
                rw [hf] at this hoff
                obtain ⟨n, hn, hna⟩ := this.some_right
                rw [hn]
                simp only [Option.getD_some] at hoff ⊢
                refine { hna with policy := rfl, phys := ⟨rfl, rfl⟩, properties := rfl, interval := rfl, own := rfl, peerType := rfl, peer := rfl, sid := rfl, on := ?_ }
                intro r hr
                rw [(hna.on r hr).1] at hoff
                cases hoff
            · rw [if_neg hk, if_neg (fun e => hk e.symm)]; exact hs i
          · rw [noteC_err _ _ _ hc]; exact hs i
      case removeAdvertisingSet k =>
        obtain ⟨rfl, rfl⟩ := runCmd_ret_of h
        simp only [removeAdvertisingSet]
        split
        · exact hs i
        · rcases checked_cases _ _ _ with ⟨hc, hr⟩ | ⟨hc, hr⟩ <;> rw [hr]
          · rw [noteC_ok]
            simp only [accepted, mapFind_mapErase]
            by_cases hk : k = i
            · rw [if_pos hk, if_pos hk.symm]; trivial
            · rw [if_neg hk, if_neg (fun e => hk e.symm)]; exact hs i
          · rw [noteC_err _ _ _ hc]; exact hs i
      case clearAdvertisingSets =>
        obtain ⟨rfl, rfl⟩ := runCmd_ret_of h
        simp only [clearAdvertisingSets]
        rcases checked_cases _ _ _ with ⟨hc, hr⟩ | ⟨hc, hr⟩ <;> rw [hr]
        · trivial
        · rw [noteC_err _ _ _ hc]; exact hs i
      case setPeriodicParameters k imin imax =>
        obtain ⟨rfl, rfl⟩ := runCmd_ret_of h
        simp only [setPeriodicParameters]
        split
        · exact hs i
        · rename_i adv hf
          rcases checked_cases _ _ _ with ⟨hc, hr⟩ | ⟨hc, hr⟩ <;> rw [hr]
          · simp only [firstError_cons, ne_eq, reduceCtorEq, not_false_eq_true, firstError_nil] at hc
            refine modify_tied (a' := { adv with periodicInterval := imax }) (f := fun n => { n with periodicInterval := imax }) hs hf
              (fun n hn => { hn with periodicInterval := rfl, train := fun t ht' => ?_ }) i
            have := (hn.train t ht').1
            rw [hc.2.2.1] at this
            cases this
          · rw [noteC_err _ _ _ hc]; exact hs i
      case setPeriodicEnable now b adi k =>
        obtain ⟨rfl, rfl⟩ := runCmd_ret_of h
        simp only [setPeriodicEnable]
        split
        · exact hs i
        · rename_i adv hf
          cases b
          · rw [if_pos rfl]
            exact modify_tied (a' := { adv with periodicEnable := false, periodicLatch := false }) (f := fun n => { n with train := none }) hs hf
              (fun n hn => { hn with noTrain := fun _ => ⟨rfl, rfl⟩, train := fun _ h => (nomatch h) }) i
          · rw [if_neg (by simp)]
            rcases checked_cases _ _ _ with ⟨hc, hr⟩ | ⟨hc, hr⟩ <;> rw [hr]
            · refine modify_tied (a' := { adv with periodicEnable := true, periodicLatch := adv.enable, nextPeriodicEvent := now })
                (f := fun n => { n with train := some ⟨now, 0, n.running.isSome⟩ }) hs hf (fun n hn => { hn with noTrain := fun h => (nomatch h), train := fun t ht' => ?_ }) i
              simp only [Option.some.injEq] at ht'
              subst ht'
              refine ⟨rfl, ?_, by simp⟩
              cases hr' : n.running with
              | none => rw [hn.off hr']; rfl
              | some r => rw [(hn.on r hr').1]; rfl
            · rw [noteC_err _ _ _ hc]; exact hs i
      all_goals first | exact absurd rfl hw | exact absurd rfl hd

theorem tied_cmd {cfg : Config} {g : Notes} {s s' : State} {c : Cmd} {e : Status} (hn : (s.resolvingList.map RlEntry.key).Nodup)
    (ht : Tied g s) (h : runCmd cfg s c = .ret s' e) (hu : ¬ Torn (.cmd c) (some e)) :
    Tied (note cfg.publicAddress g (.cmd c) (some e)) s' :=
  ⟨random_cmd ht.random h, keys_cmd hn ht.keys h, legacy_cmd ht h, fun i => by rw [note_cmd]; exact sets_cmd ht h hu i⟩

/-! ### The tick -/

theorem tickLegacy_tied {n : LegacyNotes} {a : LegacyAdv} (now : Nat) (h : LegacyTied n a) :
    LegacyTied (n.tick now).1 (tickLegacy now a).1 ∧ (tickLegacy now a).2 = (n.tick now).2 := by
  cases hr : n.running with
  | none =>
    have he := h.off hr
    simp only [LegacyNotes.tick, hr, tickLegacy, he, Bool.false_and, Bool.false_eq_true, if_false, false_and]
    exact ⟨h, trivial⟩
  | some r =>
    obtain ⟨he, ha, htg, hne, hto⟩ := h.on r hr
    by_cases hx : n.type = .advDirectIndHigh ∧ r.since + 1280000 ≤ now
    · have hexp : (a.enable && a.timeout.any (fun t => decide (now ≥ t))) = true := by
        rw [he, hto, if_pos hx.1]; simpa using hx.2
      simp only [LegacyNotes.tick, hr, tickLegacy, if_pos hx, hexp, if_true, Bool.false_eq_true, false_and, if_false]
      exact ⟨{ h with off := fun _ => rfl, on := fun _ h => (nomatch h) }, trivial⟩
    · have hexp : (a.enable && a.timeout.any (fun t => decide (now ≥ t))) = false := by
        rw [he, hto]
        by_cases hh : n.type = .advDirectIndHigh
        · rw [if_pos hh]
          have : ¬ r.since + 1280000 ≤ now := fun h => hx ⟨hh, h⟩
          simpa using this
        · rw [if_neg hh]; rfl
      simp only [LegacyNotes.tick, hr, tickLegacy, if_neg hx, hexp, Bool.false_eq_true, if_false]
      simp only [he, hne, true_and, ge_iff_le]
      by_cases hd : r.last + n.interval * 625 ≤ now
      · rw [if_pos hd, if_pos hd]
        refine ⟨{ h with off := fun h => (nomatch h), on := fun r' hr' => ?_ }, ?_⟩
        · simp only [Option.some.injEq] at hr'
          subst hr'
          refine ⟨rfl, ha, htg, ?_, hto⟩
          simp only [h.interval, Nat.mul_comm]
        · simp only [isDirected_eq, ha, htg, h.data, h.type, List.nil_append]
      · rw [if_neg hd, if_neg hd]; exact ⟨h, rfl⟩

theorem legacyType_eq : ∀ p : EventProperties, (p.legacy = true → legacyEventTypes.contains (p.raw - 0x10) = true) → p.legacy = true →
    legacyPduType p.raw = some (legacyType p) := by
  apply forall_properties
  decide

theorem timeout_tied {n : SetNotes} {a : ExtAdv} {r : SetRun} (now : Nat) (h : SetTied n a) (hr : n.running = some r) :
    (a.enable && a.timeout.any (fun t => decide (now ≥ t))) = decide (0 < r.duration ∧ r.since + 10000 * r.duration ≤ now) := by
  obtain ⟨he, -, -, -, hto⟩ := h.on r hr
  rw [he, hto]
  by_cases hd : 0 < r.duration
  · rw [if_pos hd]; simp [hd]
  · rw [if_neg hd]; simp [hd]

/-- The advertising events of a set at a tick. -/
theorem tickSet_tied {n : SetNotes} {a : ExtAdv} (now : Nat) (k : UInt8) (h : SetTied n a)
    (hl : a.properties.legacy = true → legacyEventTypes.contains (a.properties.raw - 0x10) = true) :
    ∃ r2, tickExtEvent now k (tickExtTimeout now k a).1 = some r2 ∧ SetTied (n.tickSet now k a.data).1 r2.1 ∧
      r2.1.data = a.data ∧ r2.1.periodicData = a.periodicData ∧
      (tickExtTimeout now k a).2 ++ r2.2 = (n.tickSet now k a.data).2 := by
  cases hr : n.running with
  | none =>
    have he := h.off hr
    have h1 : tickExtTimeout now k a = (a, []) := by
      simp only [tickExtTimeout, he, Bool.false_and, Bool.false_eq_true, if_false]; rfl
    refine ⟨(a, []), ?_, ?_, rfl, rfl, ?_⟩
    · simp only [h1, tickExtEvent, he, Bool.false_eq_true, false_and, if_false]
    · simp only [SetNotes.tickSet, hr]; exact h
    · simp only [SetNotes.tickSet, hr, h1, List.append_nil]
  | some r =>
    have hexp := timeout_tied now h hr
    obtain ⟨he, hne, hnc, hme, hto⟩ := h.on r hr
    by_cases hx : 0 < r.duration ∧ r.since + 10000 * r.duration ≤ now
    · rw [decide_eq_true hx] at hexp
      have h1 : tickExtTimeout now k a = ({ a with enable := false },
          (if (a.properties.directed && a.properties.connectable && a.properties.highDutyCycle) = true then [AdvOut.directedTimeout] else []) ++
          [AdvOut.setTerminated k (if a.maxEvents ≠ 0 then a.numCompletedEvents else 0)]) := by
        simp only [tickExtTimeout, hexp, if_true, Bool.false_and, Bool.false_eq_true, if_false, List.append_nil]
      refine ⟨({ a with enable := false }, []), ?_, ?_, rfl, rfl, ?_⟩
      · simp only [h1, tickExtEvent, Bool.false_eq_true, false_and, if_false]
      · simp only [SetNotes.tickSet, hr, if_pos hx]; exact setTied_stop h
      · simp only [SetNotes.tickSet, hr, if_pos hx, h1, List.append_nil, hme, hnc, h.properties]
        congr 1
        · cases n.params.properties.directed <;> cases n.params.properties.connectable <;> cases n.params.properties.highDutyCycle <;> rfl
        · by_cases hm : r.maxEvents = 0
          · simp [hm]
          · simp [hm]
    · rw [decide_eq_false hx] at hexp
      by_cases hd : 0 < r.maxEvents ∧ r.maxEvents ≤ r.sent % 256
      · have h1 : tickExtTimeout now k a = ({ a with enable := false }, [AdvOut.setTerminated k a.numCompletedEvents]) := by
          have hdone : (a.enable && a.maxEvents != 0 && decide (a.numCompletedEvents ≥ a.maxEvents)) = true := by
            rw [he, hme, hnc]
            have : r.maxEvents ≠ 0 := by omega
            simp [this, hd.2]
          simp only [tickExtTimeout, hexp, Bool.false_eq_true, if_false, hdone, if_true, List.nil_append]
        refine ⟨({ a with enable := false }, []), ?_, ?_, rfl, rfl, ?_⟩
        · simp only [h1, tickExtEvent, Bool.false_eq_true, false_and, if_false]
        · simp only [SetNotes.tickSet, hr, if_neg hx, if_pos hd]; exact setTied_stop h
        · simp only [SetNotes.tickSet, hr, if_neg hx, if_pos hd, h1, List.append_nil, hnc]
      · have h1 : tickExtTimeout now k a = (a, []) := by
          have hdone : (a.enable && a.maxEvents != 0 && decide (a.numCompletedEvents ≥ a.maxEvents)) = false := by
            rw [he, hme, hnc]
            by_cases h0 : r.maxEvents = 0
            · simp [h0]
            · have : ¬ r.maxEvents ≤ r.sent % 256 := fun h => hd ⟨by omega, h⟩
              simp only [ge_iff_le, this, decide_false, Bool.and_false]
          simp only [tickExtTimeout, hexp, Bool.false_eq_true, if_false, hdone, List.nil_append]
        simp only [h1]
        by_cases ht : r.since + r.sent * n.params.intervalMin * 625 ≤ now
        · have hon : a.enable = true ∧ now ≥ a.nextEvent := ⟨he, by rw [hne]; exact ht⟩
          have hnext : SetTied { n with running := some { r with sent := r.sent + 1 } }
              { a with nextEvent := a.nextEvent + 625 * a.interval, numCompletedEvents := (a.numCompletedEvents + 1) % 256 } := by
            refine { h with off := fun h => (nomatch h), on := fun r' hr' => ?_ }
            simp only [Option.some.injEq] at hr'
            subst hr'
            refine ⟨he, ?_, ?_, hme, hto⟩
            · simp only [hne, h.interval, Nat.add_mul, Nat.one_mul]
              rw [Nat.mul_comm 625 n.params.intervalMin, Nat.add_assoc]
            · simp only [hnc]; omega
          by_cases hlg : a.properties.legacy = true
          · refine ⟨({ a with nextEvent := a.nextEvent + 625 * a.interval, numCompletedEvents := (a.numCompletedEvents + 1) % 256 }, [.legacyPdu (some k) (legacyType a.properties) a.advertisingAddress a.targetAddress a.data]), ?_, ?_, rfl, rfl, ?_⟩
            · simp only [tickExtEvent, if_pos hon, hlg, if_true, legacyType_eq _ hl hlg]
            · simp only [SetNotes.tickSet, hr, if_neg hx, if_neg hd, if_pos ht]; exact hnext
            · simp only [SetNotes.tickSet, hr, if_neg hx, if_neg hd, if_pos ht, SetNotes.pdu, ← h.properties, hlg, if_true, List.nil_append, h.adv, h.target]
          · refine ⟨({ a with nextEvent := a.nextEvent + 625 * a.interval, numCompletedEvents := (a.numCompletedEvents + 1) % 256 }, [.extendedPdu k a.advertisingAddress a.targetAddress a.properties.connectable a.properties.scannable a.properties.directed a.sid a.periodicInterval a.data]), ?_, ?_, rfl, rfl, ?_⟩
            · simp only [tickExtEvent, if_pos hon, hlg, Bool.false_eq_true, if_false]
            · simp only [SetNotes.tickSet, hr, if_neg hx, if_neg hd, if_pos ht]; exact hnext
            · simp only [SetNotes.tickSet, hr, if_neg hx, if_neg hd, if_pos ht, SetNotes.pdu, ← h.properties, hlg, Bool.false_eq_true, if_false, List.nil_append, h.adv, h.target, h.sid, h.periodicInterval]
        · have hon : ¬ (a.enable = true ∧ now ≥ a.nextEvent) := fun h => ht (by rw [hne] at h; exact h.2)
          refine ⟨(a, []), ?_, ?_, rfl, rfl, ?_⟩
          · simp only [tickExtEvent, if_neg hon]
          · simp only [SetNotes.tickSet, hr, if_neg hx, if_neg hd, if_neg ht]; exact h
          · simp only [SetNotes.tickSet, hr, if_neg hx, if_neg hd, if_neg ht, List.append_nil]

/-- The periodic PDUs of a set at a tick. -/
theorem tickTrain_tied {n : SetNotes} {a : ExtAdv} (now : Nat) (k : UInt8) (h : SetTied n a) :
    SetTied (n.tickTrain now k a.periodicData).1 (tickPeriodic now k a).1 ∧ (tickPeriodic now k a).2 = (n.tickTrain now k a.periodicData).2 := by
  cases hr : n.train with
  | none =>
    obtain ⟨-, hla⟩ := h.noTrain hr
    simp only [SetNotes.tickTrain, hr, tickPeriodic, hla, Bool.false_eq_true, false_and, if_false]
    exact ⟨h, trivial⟩
  | some t =>
    obtain ⟨hen, hla, hnp⟩ := h.train t hr
    simp only [SetNotes.tickTrain, hr, tickPeriodic, hla, hnp, ge_iff_le]
    by_cases hd : t.sending = true ∧ t.since + t.sent * n.periodicInterval * 625 ≤ now
    · simp only [if_pos hd]
      refine ⟨{ h with noTrain := fun h => (nomatch h), train := fun t' ht' => ?_ }, ?_⟩
      · simp only [Option.some.injEq] at ht'
        subst ht'
        refine ⟨hen, rfl, ?_⟩
        simp only [h.periodicInterval, Nat.add_mul, Nat.one_mul]
        rw [Nat.mul_comm 625 n.periodicInterval, Nat.add_assoc]
      · simp only [h.adv, h.sid, h.periodicInterval]
    · simp only [if_neg hd]; exact ⟨h, trivial⟩

theorem tickSet_notes (now : Nat) (k : UInt8) (d d' : List UInt8) (n : SetNotes) :
    (n.tickSet now k d).1 = (n.tickSet now k d').1 := by
  simp only [SetNotes.tickSet]
  split
  · rfl
  · split
    · rfl
    · split
      · rfl
      · split <;> rfl

theorem tickTrain_notes (now : Nat) (k : UInt8) (d d' : List UInt8) (n : SetNotes) :
    (n.tickTrain now k d).1 = (n.tickTrain now k d').1 := by
  simp only [SetNotes.tickTrain]
  split
  · rfl
  · split <;> rfl

theorem tick_notes (now : Nat) (k : UInt8) (d p d' p' : List UInt8) (n : SetNotes) :
    (n.tick now k d p).1 = (n.tick now k d' p').1 := by
  simp only [SetNotes.tick]
  rw [tickSet_notes now k d d', tickTrain_notes now k p p']

theorem tickExt_tied {n : SetNotes} {a : ExtAdv} (now : Nat) (k : UInt8) (h : SetTied n a) (ha : AdvOk a) :
    ∃ r, tickExt now k a = some r ∧ SetTied (n.tick now k [] []).1 r.1 ∧ r.2 = (n.tick now k a.data a.periodicData).2 := by
  obtain ⟨r2, h1, h2, h3, h4, h5⟩ := tickSet_tied now k h ha.legacyTable
  obtain ⟨h6, h7⟩ := tickTrain_tied now k h2
  refine ⟨((tickPeriodic now k r2.1).1, (tickExtTimeout now k a).2 ++ r2.2 ++ (tickPeriodic now k r2.1).2), by simp only [tickExt, h1], ?_, ?_⟩
  · rw [tick_notes now k [] [] a.data r2.1.periodicData]; exact h6
  · simp only [SetNotes.tick]
    rw [h7, h5, h4]

theorem tickExtAll_out {now : Nat} (m : List (UInt8 × ExtAdv)) : ∀ r, tickExtAll now m = some r →
    r.2 = m.flatMap (fun e => ((tickExt now e.1 e.2).map (·.2)).getD []) := by
  induction m with
  | nil => intro r hr; simp only [tickExtAll, Option.some.injEq] at hr; subst hr; rfl
  | cons e m ih =>
    obtain ⟨k, a⟩ := e
    intro r hr
    simp only [tickExtAll] at hr
    split at hr
    · cases hr
    · rename_i a' o hx
      split at hr
      · cases hr
      · rename_i m' o' hm
        cases hr
        rw [List.flatMap_cons, ← ih _ hm, hx]
        rfl

theorem flatMap_congr {α β : Type} {l : List α} {f f' : α → List β} (h : ∀ x ∈ l, f x = f' x) : l.flatMap f = l.flatMap f' := by
  induction l with
  | nil => rfl
  | cons x l ih =>
    rw [List.flatMap_cons, List.flatMap_cons, h x List.mem_cons_self, ih fun y hy => h y (List.mem_cons_of_mem _ hy)]

theorem mapFind_isSome {m : List (UInt8 × ExtAdv)} {h : UInt8} : h ∈ m.map (·.1) ↔ (mapFind m h).isSome = true := by
  cases hf : mapFind m h with
  | none => simp [mapFind_none.1 hf]
  | some a =>
    simp only [Option.isSome_some, iff_true]
    exact List.mem_map.2 ⟨_, mapFind_mem hf, rfl⟩

theorem optTied_isSome {n : Option SetNotes} {x : Option ExtAdv} (h : OptTied n x) : n.isSome = x.isSome := by
  cases n <;> cases x <;> first | rfl | exact h.elim

theorem tied_tick {cfg : Config} {g : Notes} {d : Ghost} {s s' : State} {now : Nat} {out : List AdvOut} (ht : Tied g s)
    (ho : AdvsOk cfg s.extAdv d) (h : runEnv s (.tick now) = .ret s' out) :
    Tied (happened g (.tick now)) s' ∧ Foretold g d now out := by
  obtain ⟨m, hm, rfl, rfl⟩ := runEnv_tick h
  obtain ⟨hl1, hl2⟩ := tickLegacy_tied now ht.legacy
  obtain ⟨-, hsp, -⟩ := tickExtAll_spec _ _ hm
  refine ⟨⟨ht.random, ht.keys, hl1, fun i => ?_⟩, ⟨s.extAdv.map (·.1), ho.keys, fun i => ?_, ?_⟩⟩
  · have hs := ht.sets i
    have he := ho.entries i
    rcases hsp i with ⟨h1, h2⟩ | ⟨a, x, h1, h2, h3⟩
    · rw [h1] at hs
      simp only [happened, h2, hs.none_right]
      trivial
    · rw [h1] at hs he
      obtain ⟨n, hn, hna⟩ := hs.some_right
      obtain ⟨r, hr, hr1, -⟩ := tickExt_tied now i hna he.1
      rw [hr] at h2
      cases h2
      simp only [happened, h3, hn]
      exact hr1
  · rw [mapFind_isSome, optTied_isSome (ht.sets i)]
  · rw [hl2, tickExtAll_out _ _ hm, List.flatMap_map]
    congr 1
    apply flatMap_congr
    rintro ⟨i, a⟩ hmem
    have hf := mapFind_of_mem ho.keys hmem
    have hs := ht.sets i
    have he := ho.entries i
    rw [hf] at hs he
    obtain ⟨n, hn, hna⟩ := hs.some_right
    obtain ⟨r, hr, -, hr2⟩ := tickExt_tied now i hna he.1
    simp only [hr, Option.map_some, Option.getD_some, Notes.setSends, hn, hr2]
    rw [he.2.data.1, he.2.periodic.1]

theorem tied_env {cfg : Config} {g : Notes} {d : Ghost} {s s' : State} {e : Env} {out : List AdvOut} (ht : Tied g s)
    (ho : AdvsOk cfg s.extAdv d) (h : runEnv s e = .ret s' out) : Tied (happened g e) s' := by
  cases e
  case tick => exact (tied_tick ht ho h).1
  case reset => simp only [runEnv] at h; cases h; exact tied_initial none
  case legacyConnected =>
    simp only [runEnv] at h
    cases h
    exact ⟨ht.random, ht.keys, { ht.legacy with off := fun _ => rfl, on := fun _ h => (nomatch h) }, ht.sets⟩
  case extendedConnected k =>
    simp only [runEnv] at h
    split at h
    · rename_i hf
      cases h
      refine ⟨ht.random, ht.keys, ht.legacy, fun i => ?_⟩
      simp only [happened, Notes.modify]
      split
      · rename_i hk
        subst hk
        have := ht.sets i
        rw [hf] at this
        rw [this.none_right, hf]; trivial
      · exact ht.sets i
    · rename_i a hf
      cases h
      exact ⟨ht.random, ht.keys, ht.legacy, fun i => modify_tied ht.sets hf (fun n hn => setTied_stop hn) i⟩
  case resolved rpa irk =>
    have hc := runEnv_content (by simp) h
    unfold_env h
    exact ⟨ht.random, fun t a => (lookupKeys_content hc t a).trans (ht.keys t a), ht.legacy, ht.sets⟩
  case rpaGenerated rnd peer =>
    have hc := runEnv_content (by simp) h
    unfold_env h
    exact ⟨ht.random, fun t a => (lookupKeys_content hc t a).trans (ht.keys t a), ht.legacy, ht.sets⟩
  all_goals unfold_env h
  all_goals exact ⟨ht.random, ht.keys, ht.legacy, ht.sets⟩

/-! ### Runs -/

theorem tied_run {cfg : Config} (ops : List Op) : ∀ {s s' : State} {g g' : Notes} {d d' : Ghost},
    ListsOk cfg s → AdvsOk cfg s.extAdv d → Tied g s → Untorn cfg ops s → runNotes cfg ops s g d = some (s', g', d') →
    AdvsOk cfg s'.extAdv d' ∧ Tied g' s' := by
  induction ops with
  | nil => intro s s' g g' d d' _ ho ht _ h; cases h; exact ⟨ho, ht⟩
  | cons o ops ih =>
    intro s s' g g' d d' hl ho ht hu h
    simp only [runNotes] at h
    simp only [Untorn] at hu
    split at h
    · rename_i s1 st out hstep
      rw [hstep] at hu
      refine ih (listsOk_step hl hstep) (advsOk_step ho hstep) ?_ hu.2 h
      cases o with
      | cmd c =>
        obtain ⟨e, he, rfl, -⟩ := step_cmd hstep
        exact tied_cmd hl.resolveKeys ht he hu.1
      | env e =>
        obtain ⟨he, rfl⟩ := step_env hstep
        exact tied_env ht ho he
    · cases h
    · cases h

end Verif.Le
