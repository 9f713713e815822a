import Verif.Ll.SpecRead
import Verif.Ll.AskRead
import Verif.Ll.RpaInv
/-!
# Reading resolvable private addresses: lemmas (C111)
-/

namespace Verif.Ll
open Verif.Le

/-- What matters of an entry: whose it is, a key and an address. -/
abbrev View := PeerAddressType × Address × Irk × Option Address

def peerView (l : List RlEntry) : List View := l.map fun e => (e.peerType, e.peerAddress, e.peerIrk, e.peerRpa)
def localView (l : List RlEntry) : List View := l.map fun e => (e.peerType, e.peerAddress, e.localIrk, e.localRpa)

def readIn (l : List View) (t : PeerAddressType) (i : Address) : Option Address :=
  l.findSome? fun e => if e.1 = t ∧ e.2.1 = i then e.2.2.2 else none

theorem readPeer_eq (s : Le.State) (t : PeerAddressType) (i : Address) :
    readPeerRpa s t i = readIn (peerView s.resolvingList) t i := by
  simp only [readPeerRpa, readIn, peerView, List.findSome?_map]; rfl

theorem readLocal_eq (s : Le.State) (t : PeerAddressType) (i : Address) :
    readLocalRpa s t i = readIn (localView s.resolvingList) t i := by
  simp only [readLocalRpa, readIn, localView, List.findSome?_map]; rfl

def write (f : View → Address) (e : View) : View := (e.1, e.2.1, e.2.2.1, some (f e))

def heardIn (ah : Hash) (a : AddressWithType) (l : List View) : List View :=
  modifyFirst (fun e => matchesIrk ah e.2.2.1 a) (write fun _ => a.address) l

def drawnIn (rnd : Irk → Address) (r : AddressWithType) (l : List View) : List View :=
  modifyFirst (fun e => decide (r.address = e.2.1 ∧ r.toPeerType = e.1)) (write fun e => rnd e.2.2.1) l

theorem peerView_generate (rnd : Irk → Address) (a : AddressWithType) (sel : IrkSelection) (l : List RlEntry) :
    peerView (generateRpa rnd a sel l).1 = peerView l := by
  induction l with
  | nil => rfl
  | cons e l ih =>
    simp only [generateRpa]
    split
    · cases sel <;> rfl
    · simp only [peerView, List.map_cons] at ih ⊢; rw [ih]

theorem localView_generate (rnd : Irk → Address) (a : AddressWithType) (l : List RlEntry) :
    localView (generateRpa rnd a .loc l).1 = drawnIn rnd a (localView l) := by
  induction l with
  | nil => rfl
  | cons e l ih =>
    simp only [generateRpa]
    by_cases h : a.address = e.peerAddress ∧ a.toPeerType = e.peerType
    · rw [if_pos h]
      simp [localView, drawnIn, modifyFirst, h, write]
    · rw [if_neg h]
      simp only [localView, drawnIn, List.map_cons, modifyFirst] at ih ⊢
      rw [if_neg (by simpa using h), ih]

def hear (ah : Hash) (en : Bool) (a : AddressWithType) (l : List View) : List View :=
  if isRpa a = true ∧ en = true then heardIn ah a l else l

theorem modifyFirst_map {α β : Type} (g : α → β) (p : α → Bool) (q : β → Bool) (f : α → α) (f' : β → β)
    (h1 : ∀ a, q (g a) = p a) (h2 : ∀ a, g (f a) = f' (g a)) (l : List α) :
    (modifyFirst p f l).map g = modifyFirst q f' (l.map g) := by
  induction l with
  | nil => rfl
  | cons a l ih =>
    simp only [modifyFirst, List.map_cons, h1]
    split
    · simp [h2]
    · simp [ih]

theorem modifyFirst_idem {α : Type} (p : α → Bool) (f : α → α) (h1 : ∀ a, p (f a) = p a) (h2 : ∀ a, f (f a) = f a) (l : List α) :
    modifyFirst p f (modifyFirst p f l) = modifyFirst p f l := by
  induction l with
  | nil => rfl
  | cons a l ih =>
    by_cases hp : p a = true
    · simp [modifyFirst, hp, h1, h2]
    · simp [modifyFirst, hp, ih]

theorem modifyFirst_same {α : Type} (p : α → Bool) (f : α → α) (g : α → β) (h : ∀ a, g (f a) = g a) (l : List α) :
    (modifyFirst p f l).map g = l.map g := by
  induction l with
  | nil => rfl
  | cons a l ih =>
    simp only [modifyFirst]
    split
    · simp [h]
    · simp [ih]

theorem peerView_update (ah : Hash) (s : Le.State) (a : AddressWithType) :
    peerView (resolveUpdate ah s a).resolvingList = hear ah s.resolvingListEnabled a (peerView s.resolvingList) := by
  simp only [resolveUpdate, hear]
  split
  · unfold peerView heardIn
    exact modifyFirst_map _ _ _ _ _ (fun _ => by rfl) (fun _ => by rfl) _
  · rfl

theorem localView_update (ah : Hash) (s : Le.State) (a : AddressWithType) :
    localView (resolveUpdate ah s a).resolvingList = localView s.resolvingList := by
  simp only [resolveUpdate]
  split
  · exact modifyFirst_same _ _ _ (fun _ => by rfl) _
  · rfl

theorem update_enabled (ah : Hash) (s : Le.State) (a : AddressWithType) :
    (resolveUpdate ah s a).resolvingListEnabled = s.resolvingListEnabled := by
  simp only [resolveUpdate]; split <;> rfl

theorem hear_idem (ah : Hash) (en : Bool) (a : AddressWithType) (l : List View) : hear ah en a (hear ah en a l) = hear ah en a l := by
  simp only [hear]
  split
  · unfold heardIn
    exact modifyFirst_idem _ _ (fun _ => by rfl) (fun _ => by rfl) _
  · rfl

theorem drawn_idem (rnd : Irk → Address) (r : AddressWithType) (l : List View) : drawnIn rnd r (drawnIn rnd r l) = drawnIn rnd r l := by
  unfold drawnIn
  exact modifyFirst_idem _ _ (fun _ => by rfl) (fun _ => by rfl) _

/-- What a part of the processing of a packet does to the addresses. -/
structure Reads (ah : Hash) (rnd : Irk → Address) (a : AddressWithType) (s s' : Le.State) (out : List Out) : Prop where
  enabled : s'.resolvingListEnabled = s.resolvingListEnabled
  keys : s'.resolvingList.map RlEntry.content = s.resolvingList.map RlEntry.content
  peer : peerView s'.resolvingList = hear ah s.resolvingListEnabled a (peerView s.resolvingList) ∨
    peerView s'.resolvingList = peerView s.resolvingList ∧ out = []
  loc : localView s'.resolvingList = (if asked out = true then drawnIn rnd (resolved ah s a) else id) (localView s.resolvingList)

theorem resolved_content {ah : Hash} {s s' : Le.State} (h1 : s'.resolvingListEnabled = s.resolvingListEnabled)
    (h2 : s'.resolvingList.map RlEntry.content = s.resolvingList.map RlEntry.content) (a : AddressWithType) :
    resolved ah s' a = resolved ah s a := by
  have hf : ∀ l : List RlEntry, ((findResolving ah a l).map fun e => peerDeviceAddress e.peerAddress e.peerType) =
      ((l.map RlEntry.content).find? (fun c => matchesIrk ah c.2.2.1 a)).map fun c => peerDeviceAddress c.2.1 c.1 := by
    intro l
    induction l with
    | nil => rfl
    | cons e l ih =>
      simp only [findResolving, List.find?_cons, List.map_cons] at ih ⊢
      show _ = Option.map _ (match matchesIrk ah e.peerIrk a with | true => _ | false => _)
      cases matchesIrk ah e.peerIrk a
      · exact ih
      · rfl
  simp only [resolved, resolvePrivate, h1, hf, h2]

theorem asked_append (a b : List Out) : asked (a ++ b) = (asked a || asked b) := by
  simp only [asked, List.any_append]

theorem Reads.trans {ah : Hash} {rnd : Irk → Address} {a : AddressWithType} {s t u : Le.State} {o1 o2 : List Out}
    (h1 : Reads ah rnd a s t o1) (h2 : Reads ah rnd a t u o2) : Reads ah rnd a s u (o1 ++ o2) := by
  refine ⟨h2.1.trans h1.1, h2.2.trans h1.2, ?_, ?_⟩
  · have hp := h2.3
    rw [h1.1] at hp
    rcases h1.3 with h | ⟨h, rfl⟩
    · rw [h] at hp
      rcases hp with hp | ⟨hp, rfl⟩
      · rw [hear_idem] at hp; exact .inl hp
      · exact .inl hp
    · rw [h] at hp
      rcases hp with hp | ⟨hp, rfl⟩
      · exact .inl hp
      · exact .inr ⟨hp, rfl⟩
  · rw [h2.4, h1.4, asked_append, resolved_content h1.1 h1.2]
    cases asked o1 <;> cases asked o2 <;> simp [drawn_idem]

theorem Reads.same {ah : Hash} {rnd : Irk → Address} {a : AddressWithType} {s s' : Le.State}
    (h1 : s'.resolvingListEnabled = s.resolvingListEnabled) (h2 : s'.resolvingList = s.resolvingList) : Reads ah rnd a s s' [] :=
  ⟨h1, by rw [h2], .inr ⟨by rw [h2], rfl⟩, by rw [h2]; rfl⟩

theorem update_content (ah : Hash) (s : Le.State) (a : AddressWithType) :
    (resolveUpdate ah s a).resolvingList.map RlEntry.content = s.resolvingList.map RlEntry.content := by
  simp only [resolveUpdate]
  split
  · exact modifyFirst_same _ _ _ (fun _ => by rfl) _
  · rfl

/-- The address was resolved, and nobody was asked anything. -/
theorem Reads.update {ah : Hash} {rnd : Irk → Address} {a : AddressWithType} {s s' : Le.State} {out : List Out}
    (h1 : s'.resolvingListEnabled = (resolveUpdate ah s a).resolvingListEnabled)
    (h2 : s'.resolvingList = (resolveUpdate ah s a).resolvingList) (h3 : asked out = false) : Reads ah rnd a s s' out :=
  ⟨h1.trans (update_enabled ..), by rw [h2, update_content], .inl (by rw [h2, peerView_update]),
    by rw [h2, localView_update, h3]; rfl⟩

/-- The address was resolved, and a request was sent. -/
theorem Reads.request {ah : Hash} {rnd : Irk → Address} {a : AddressWithType} {s s' : Le.State} {out : List Out}
    (h1 : s'.resolvingListEnabled = (resolveUpdate ah s a).resolvingListEnabled)
    (h2 : s'.resolvingList = (generateRpa rnd (resolved ah s a) .loc (resolveUpdate ah s a).resolvingList).1) (h3 : asked out = true) :
    Reads ah rnd a s s' out :=
  ⟨h1.trans (update_enabled ..), by rw [h2, generateRpa_content, update_content], .inl (by rw [h2, peerView_generate, peerView_update]),
    by rw [h2, localView_generate, localView_update, h3]; rfl⟩

theorem asked_legacyReports (ah : Hash) (s : Le.State) (p : LegacyPdu) (r : AddressWithType) : asked (legacyReports ah s p r) = false := by
  unfold legacyReports
  cases s.legacyInUse <;> cases s.extendedInUse <;> cases wantsDirectedReport ah s p.type.directed r p.target <;> rfl

theorem asked_map_ext (f : Bool × List UInt8 → ExtReport) (l : List (Bool × List UInt8)) : asked (l.map fun x => .extReport (f x)) = false := by
  induction l with
  | nil => rfl
  | cons a l ih => exact ih

theorem asked_extReports (p : ExtPdu) (r : AddressWithType) : asked (extReports p r) = false := asked_map_ext _ _

theorem asked_responseReports (s : Le.State) (req : ScanRequest) (r : AddressWithType) (d : List UInt8) : asked (responseReports s req r d) = false := by
  unfold responseReports
  rw [asked_append]
  cases s.legacyInUse <;> cases s.extendedInUse <;> simp [asked]

theorem scanRequest_reads {ah : Hash} {cfg : Config} {rnd : Irk → Address} {s0 s : State} {a : AddressWithType} {sc fr : Bool}
    {req : ScanRequest} {q : State × List Out} {rep : List Out} (hs : s.le = resolveUpdate ah s0.le a) (hrep : asked rep = false)
    (h : scanRequest cfg rnd s a (resolved ah s0.le a) sc fr req = .ok q) : Reads ah rnd a s0.le q.1.le (rep ++ q.2) := by
  unfold scanRequest at h
  split at h
  · cases h; exact .update (by rw [hs]) (by rw [hs]) (by simpa using hrep)
  split at h
  · cases h; exact .update (by rw [hs]) (by rw [hs]) (by simpa using hrep)
  split at h
  · cases h; exact .update (by rw [hs]) (by rw [hs]) (by simpa using hrep)
  split at h
  · cases h; exact .update (by rw [hs]) (by rw [hs]) (by simpa using hrep)
  split at h
  · cases h
  · cases h
    refine .request ?_ ?_ ?_
    · show s.le.resolvingListEnabled = _; rw [hs]
    · show (generateRpa rnd _ .loc s.le.resolvingList).1 = _; rw [hs]
    · rw [asked_append]; simp [asked]

theorem scanLegacy_reads {ah : Hash} {cfg : Config} {rnd : Irk → Address} {now : Nat} {s : State} {p : LegacyPdu} {x : State × List Out}
    (h : scanLegacy ah cfg rnd now s p = .ok x) : Reads ah rnd p.adv s.le x.1.le x.2 := by
  simp only [scanLegacy] at h
  split at h
  · cases h; exact .same rfl rfl
  split at h
  · cases h; exact .update rfl rfl rfl
  obtain ⟨q, hq, h⟩ := Res.bind_eq_ok h
  cases h
  refine scanRequest_reads (by rw [remember_le]) ?_ hq
  split
  · exact asked_legacyReports _ _ _ _
  · rfl

theorem scanExtended_reads {ah : Hash} {cfg : Config} {rnd : Irk → Address} {now : Nat} {s : State} {p : ExtPdu} {x : State × List Out}
    (h : scanExtended ah cfg rnd now s p = .ok x) : Reads ah rnd p.adv s.le x.1.le x.2 := by
  simp only [scanExtended] at h
  split at h
  · cases h; exact .same rfl rfl
  split at h
  · cases h; exact .same rfl rfl
  split at h
  · cases h; exact .same rfl rfl
  split at h
  · cases h; exact .update rfl rfl rfl
  obtain ⟨q, hq, h⟩ := Res.bind_eq_ok h
  cases h
  refine scanRequest_reads (by rw [remember_le]) ?_ hq
  split
  · exact asked_extReports _ _
  · rfl

theorem initiate_reads {ah : Hash} {cfg : Config} {rnd : Irk → Address} {s : State} {a target : AddressWithType} {c d : Bool}
    {x : State × List Out} (h : initiate ah cfg rnd s a target c d = .ok x) : Reads ah rnd a s.le x.1.le x.2 := by
  simp only [initiate] at h
  split at h
  · cases h; exact .same rfl rfl
  split at h
  · cases h; exact .same rfl rfl
  split at h
  · cases h; exact .update rfl rfl rfl
  split at h
  · cases h
  · cases h; exact .request rfl rfl rfl

theorem handleConnection_reads {s : State} {c : LeConn} {ch : Bool} {x : Nat × State × List Out} (h : handleConnection s c ch = .ok x) :
    x.2.1.le.resolvingListEnabled = s.le.resolvingListEnabled ∧ asked x.2.2 = false := by
  unfold handleConnection at h
  split at h
  · cases h
  split at h
  · cases h
  · cases h; cases ch <;> exact ⟨rfl, rfl⟩

theorem legacyConnect_reads {ah : Hash} {rnd : Irk → Address} {s : State} {init adv : AddressWithType} {q : LinkParams}
    {x : Bool × State × List Out} (h : legacyConnect ah s init adv q = .ok x) :
    Reads ah rnd init s.le x.2.1.le x.2.2 ∧ (x.1 = false → x.2.2 = []) := by
  simp only [legacyConnect] at h
  split at h
  · cases h; exact ⟨.same rfl rfl, fun _ => rfl⟩
  split at h
  · cases h; exact ⟨.same rfl rfl, fun _ => rfl⟩
  split at h
  · cases h; exact ⟨.same rfl rfl, fun _ => rfl⟩
  split at h
  · cases h; exact ⟨.update rfl rfl rfl, fun _ => rfl⟩
  obtain ⟨y, hy, hx⟩ := Res.bind_eq_ok h
  cases hx
  obtain ⟨h1, h2⟩ := handleConnection_reads hy
  exact ⟨.update h1 (handleConnection_resolving hy) (by rw [asked_append, h2]; rfl), nofun⟩

theorem extConnect_reads {ah : Hash} {rnd : Irk → Address} {s : State} {k : UInt8} {a : ExtAdv} {init adv : AddressWithType} {q : LinkParams}
    {x : Bool × State × List Out} (h : extConnect ah s k a init adv q = .ok x) :
    Reads ah rnd init s.le x.2.1.le x.2.2 ∧ (x.1 = false → x.2.2 = []) := by
  simp only [extConnect] at h
  split at h
  · cases h; exact ⟨.same rfl rfl, fun _ => rfl⟩
  split at h
  · cases h; exact ⟨.same rfl rfl, fun _ => rfl⟩
  split at h
  · cases h; exact ⟨.same rfl rfl, fun _ => rfl⟩
  split at h
  · cases h; exact ⟨.update rfl rfl rfl, fun _ => rfl⟩
  obtain ⟨y, hy, hx⟩ := Res.bind_eq_ok h
  cases hx
  obtain ⟨h1, h2⟩ := handleConnection_reads hy
  exact ⟨.update h1 (handleConnection_resolving hy) (by rw [asked_append, h2]; rfl), nofun⟩

theorem extConnectAll_reads {ah : Hash} {rnd : Irk → Address} {init adv : AddressWithType} {q : LinkParams} :
    ∀ {l : List (UInt8 × ExtAdv)} {s : State} {x : State × List Out}, extConnectAll ah init adv q l s = .ok x →
      Reads ah rnd init s.le x.1.le x.2
  | [], _, _, h => by cases h; exact .same rfl rfl
  | (k, a) :: l, s, x, h => by
    simp only [extConnectAll] at h
    obtain ⟨⟨b, s1, o1⟩, hy, hx⟩ := Res.bind_eq_ok h
    obtain ⟨h1, h2⟩ := extConnect_reads (rnd := rnd) hy
    cases b with
    | true => cases hx; exact h1
    | false =>
      have := h2 rfl
      have h3 := h1.trans (extConnectAll_reads (rnd := rnd) hx)
      rw [this] at h3
      exact h3

theorem asked_scanned (ah : Hash) (s : State) (sc adv : AddressWithType) : asked (incomingScan ah s sc adv).2 = false := by
  simp only [incomingScan, asked_append]
  have h1 : ∀ (le : Le.State) (r : AddressWithType), asked (legacyScanned le sc r adv) = false := by
    intro le r; unfold legacyScanned; split <;> rfl
  rw [h1, Bool.false_or]
  generalize (resolveUpdate ah s.le sc).extAdv = l
  induction l with
  | nil => rfl
  | cons e l ih =>
    rw [List.flatMap_cons, asked_append, ih, Bool.or_false]
    unfold extScanned; split <;> rfl

theorem receive_reads {ah : Hash} {cfg : Config} {rnd : Irk → Address} {now : Nat} {s : State} {p : Packet} {a : AddressWithType}
    {x : State × List Out} (ha : sender p = some a) (h : receive ah cfg rnd now s p = .ok x) : Reads ah rnd a s.le x.1.le x.2 := by
  cases p with
  | legacyAdv p =>
    cases ha
    simp only [receive] at h
    obtain ⟨y, hy, h⟩ := Res.bind_eq_ok h
    obtain ⟨z, hz, h⟩ := Res.bind_eq_ok h
    cases h
    refine (scanLegacy_reads hy).trans ?_
    simp only [connectLegacy] at hz
    split at hz
    · cases hz; exact .same rfl rfl
    · exact initiate_reads hz
  | extAdv p =>
    cases ha
    simp only [receive] at h
    obtain ⟨y, hy, h⟩ := Res.bind_eq_ok h
    obtain ⟨z, hz, h⟩ := Res.bind_eq_ok h
    cases h
    refine (scanExtended_reads hy).trans ?_
    simp only [connectExtended] at hz
    split at hz
    · cases hz; exact .same rfl rfl
    split at hz
    · cases hz; exact .same rfl rfl
    · exact initiate_reads hz
  | periodic p =>
    cases ha
    simp only [receive, periodicPdu] at h
    split at h
    · cases h; exact .same rfl rfl
    split at h
    · cases h; exact .same rfl rfl
    split at h
    · split at h
      · cases h; exact .update rfl rfl rfl
      · split at h
        · cases h
        · cases h; exact .update rfl rfl rfl
    · cases h
      refine .update rfl rfl ?_
      have hin : ∀ (k : Nat) (fs : List (Bool × List UInt8)), asked (fs.map (fun f => Out.periodicReport k f.1 f.2)) = false := by
        intro k fs
        induction fs with
        | nil => rfl
        | cons f fs ih => exact ih
      simp only
      generalize List.filter _ _ = l
      induction l with
      | nil => rfl
      | cons e l ih => rw [List.flatMap_cons, asked_append, hin, ih]; rfl
  | connect init adv q =>
    cases ha
    simp only [receive, incomingConnect] at h
    obtain ⟨⟨b, s1, o1⟩, hy, hx⟩ := Res.bind_eq_ok h
    obtain ⟨h1, h2⟩ := legacyConnect_reads (rnd := rnd) hy
    cases b with
    | true => cases hx; exact h1
    | false =>
      have := h2 rfl
      have h3 := h1.trans (extConnectAll_reads (rnd := rnd) hx)
      rw [this] at h3
      exact h3
  | connectComplete init adv q =>
    cases ha
    simp only [receive, incomingConnectComplete] at h
    split at h
    · cases h; exact .same rfl rfl
    obtain ⟨y, hy, hx⟩ := Res.bind_eq_ok h
    cases hx
    obtain ⟨h1, h2⟩ := handleConnection_reads hy
    exact .update h1 (handleConnection_resolving hy) h2
  | scan sc adv => cases ha; cases h; exact .update rfl rfl (asked_scanned ah s _ adv)
  | scanResponse adv sc d =>
    cases ha
    cases h
    simp only [scanResponse]
    split
    · exact .same rfl rfl
    split
    · exact .same rfl rfl
    · refine .update ?_ ?_ ?_
      · rw [remember_le]
      · rw [remember_le]
      · show asked (if _ then _ else _) = false
        split
        · exact asked_responseReports _ _ _ _
        · rfl
  | link a b c => cases ha

/-! ### Reading after a change -/

def keyOf (v : View) : PeerAddressType × Address := (v.1, v.2.1)

theorem read_absent {l : List View} {t : PeerAddressType} {i : Address} (h : (t, i) ∉ l.map keyOf) : readIn l t i = none := by
  induction l with
  | nil => rfl
  | cons e l ih =>
    simp only [List.map_cons, List.mem_cons, not_or] at h
    have he : ¬ (e.1 = t ∧ e.2.1 = i) := fun hc => h.1 (by simp [keyOf, hc.1, hc.2])
    simp only [readIn, List.findSome?_cons, if_neg he]
    exact ih h.2

theorem read_modify (p : View → Bool) (f : View → Address) (t : PeerAddressType) (i : Address) :
    ∀ {l : List View}, (l.map keyOf).Nodup →
    readIn (modifyFirst p (write f) l) t i =
      match l.find? p with
      | some e => if e.1 = t ∧ e.2.1 = i then some (f e) else readIn l t i
      | none => readIn l t i
  | [], _ => rfl
  | e :: l, hn => by
    simp only [List.map_cons, List.nodup_cons] at hn
    by_cases hp : p e = true
    · simp only [modifyFirst, hp, if_true, List.find?_cons]
      by_cases hk : e.1 = t ∧ e.2.1 = i
      · rw [if_pos hk]
        simp [readIn, write, hk]
      · rw [if_neg hk]
        have h2 : ¬ ((write f e).1 = t ∧ (write f e).2.1 = i) := hk
        simp only [readIn, List.findSome?_cons, if_neg hk, if_neg h2]
    · simp only [modifyFirst, hp, List.find?_cons]
      have ih := read_modify p f t i hn.2
      by_cases hk : e.1 = t ∧ e.2.1 = i
      · have ha : (t, i) ∉ l.map keyOf := by
          rw [← hk.1, ← hk.2]; exact hn.1
        have hr : readIn l t i = none := read_absent ha
        have hm : readIn (modifyFirst p (write f) l) t i = none := by
          apply read_absent
          rw [modifyFirst_same _ _ keyOf (fun _ => by rfl)]
          exact ha
        have hl : ∀ l', readIn l' t i = none → readIn (e :: l') t i = e.2.2.2 := by
          intro l' h
          simp only [readIn, List.findSome?_cons, if_pos hk] at h ⊢
          cases he : e.2.2.2 with
          | none => exact h
          | some v => rfl
        show readIn (e :: _) t i = _
        rw [hl _ hm, hl _ hr]
        cases hf : l.find? p with
        | none => rfl
        | some e' =>
          have hm' := List.mem_of_find?_eq_some hf
          have : ¬ (e'.1 = t ∧ e'.2.1 = i) := fun hc => ha (List.mem_map.2 ⟨e', hm', by simp [keyOf, hc.1, hc.2]⟩)
          simp [this]
      · have hl : ∀ l', readIn (e :: l') t i = readIn l' t i := by
          intro l'
          simp only [readIn, List.findSome?_cons, if_neg hk]
        show readIn (e :: _) t i = _
        rw [hl, hl, ih]

theorem peerView_keys (l : List RlEntry) : (peerView l).map keyOf = l.map RlEntry.key := by
  simp only [peerView, List.map_map]; rfl

theorem localView_keys (l : List RlEntry) : (localView l).map keyOf = l.map RlEntry.key := by
  simp only [localView, List.map_map]; rfl

theorem find_peer {ah : Hash} {s : Le.State} {n : Ask} (h : TiedLists s n) {a : AddressWithType} (hi : isRpa a = true)
    (he : s.resolvingListEnabled = true) {v : View} (hf : (peerView s.resolvingList).find? (fun e => matchesIrk ah e.2.2.1 a) = some v) :
    ∃ e, n.behind ah a e ∧ e.type = v.1 ∧ e.address = v.2.1 := by
  have ht := ((isRpa_iff a).1 hi).1
  rw [List.find?_eq_some_iff_append] at hf
  obtain ⟨hm, as, bs, hl, hb⟩ := hf
  unfold peerView at hl
  obtain ⟨l1, l2, h1, rfl, h3⟩ := List.map_eq_append_iff.1 hl
  obtain ⟨e, l3, rfl, rfl, rfl⟩ := List.map_eq_cons_iff.1 h3
  refine ⟨asPeer e, ⟨by rw [← h.5]; exact he, ht, l1.map asPeer, l3.map asPeer, ?_, ?_, ?_⟩, rfl, rfl⟩
  · rw [← h.3, h1]; simp
  · exact ((matchesIrk_iff ah _ a).1 hm).2
  · intro x hx
    obtain ⟨y, hy, rfl⟩ := List.mem_map.1 hx
    intro hc
    have := hb _ (List.mem_map.2 ⟨y, hy, rfl⟩)
    have hm' := (matchesIrk_iff ah y.peerIrk a).2 ⟨ht, hc⟩
    simp [hm'] at this

theorem peer_found {ah : Hash} {s : Le.State} {n : Ask} (h : TiedLists s n) {a : AddressWithType} {e : Peer} (hb : n.behind ah a e) :
    isRpa a = true ∧ s.resolvingListEnabled = true ∧
      ∃ v, (peerView s.resolvingList).find? (fun e => matchesIrk ah e.2.2.1 a) = some v ∧ v.1 = e.type ∧ v.2.1 = e.address := by
  obtain ⟨h1, h2, before, after, h3, h4, h5⟩ := hb
  refine ⟨(isRpa_iff a).2 ⟨h2, h4.1⟩, h.5.trans h1, ?_⟩
  rw [← h.3] at h3
  obtain ⟨l1, l2, g1, rfl, g3⟩ := List.map_eq_append_iff.1 h3
  obtain ⟨e', l3, rfl, rfl, rfl⟩ := List.map_eq_cons_iff.1 g3
  refine ⟨(e'.peerType, e'.peerAddress, e'.peerIrk, e'.peerRpa), ?_, rfl, rfl⟩
  rw [List.find?_eq_some_iff_append]
  refine ⟨(matchesIrk_iff ah _ a).2 ⟨h2, h4⟩, peerView l1, peerView l3, ?_, ?_⟩
  · rw [g1]; simp [peerView]
  · intro v hv
    obtain ⟨y, hy, rfl⟩ := List.mem_map.1 hv
    have := h5 _ (List.mem_map_of_mem hy)
    simp only [Bool.not_eq_true', Bool.eq_false_iff]
    intro hc
    exact this ((matchesIrk_iff ah _ a).1 hc).2

/-! ### Commands -/

/-- Some addresses were replaced by new ones. -/
structure Redrawn (D : Irk → Address → Prop) (l l' : List RlEntry) : Prop where
  content : l'.map asPeer = l.map asPeer
  peer : peerView l' = peerView l
  loc : ∀ t i, readIn (localView l') t i = readIn (localView l) t i ∨
    ∃ e ∈ l, e.peerType = t ∧ e.peerAddress = i ∧ ∃ b, D e.localIrk b ∧ readIn (localView l') t i = some b

theorem Redrawn.refl (D : Irk → Address → Prop) (l : List RlEntry) : Redrawn D l l := ⟨rfl, rfl, fun _ _ => .inl rfl⟩

theorem Redrawn.trans {D : Irk → Address → Prop} {l l' l'' : List RlEntry} (h1 : Redrawn D l l') (h2 : Redrawn D l' l'') : Redrawn D l l'' := by
  refine ⟨h2.1.trans h1.1, h2.2.trans h1.2, fun t i => ?_⟩
  rcases h2.3 t i with h | ⟨e, he, g1, g2, b, g3, g4⟩
  · rw [h]; exact h1.3 t i
  · right
    have : asPeer e ∈ l.map asPeer := by rw [← h1.1]; exact List.mem_map_of_mem he
    obtain ⟨e', he', hc⟩ := List.mem_map.1 this
    simp only [asPeer, Peer.mk.injEq] at hc
    exact ⟨e', he', hc.1.trans g1, hc.2.1.trans g2, b, by rw [hc.2.2.2]; exact g3, g4⟩

theorem generate_redrawn {D : Irk → Address → Prop} {rnd : Irk → Address} (hD : ∀ k, D k (rnd k)) (a : AddressWithType) {l : List RlEntry}
    (hn : (l.map RlEntry.key).Nodup) : Redrawn D l (generateRpa rnd a .loc l).1 := by
  refine ⟨asPeer_of_content (generateRpa_content _ _ _ _), peerView_generate _ _ _ _, fun t i => ?_⟩
  rw [localView_generate, drawnIn, read_modify _ _ _ _ (by rw [localView_keys]; exact hn)]
  split
  · rename_i v hv
    split
    · rename_i hk
      right
      obtain ⟨e, he, rfl⟩ := List.mem_map.1 (List.mem_of_find?_eq_some hv)
      exact ⟨e, he, hk.1, hk.2, _, hD _, rfl⟩
    · exact .inl rfl
  · exact .inl rfl

theorem Redrawn.nodup {D : Irk → Address → Prop} {l l' : List RlEntry} (h : Redrawn D l l') (hn : (l.map RlEntry.key).Nodup) :
    (l'.map RlEntry.key).Nodup := by
  rw [← peerView_keys] at hn ⊢
  rw [h.2]; exact hn

theorem validateSets_redrawn (cfg : Config) {D : Irk → Address → Prop} {rnd : Nat → Irk → Address} (hD : ∀ j k, D k (rnd j k)) (sets : List EnabledSet) :
    ∀ (i : Nat) (s : Le.State), (s.resolvingList.map RlEntry.key).Nodup → Redrawn D s.resolvingList (validateSets cfg rnd i sets s).1.resolvingList := by
  induction sets with
  | nil => intro i s hs; exact .refl _ _
  | cons set sets ih =>
    intro i s hs
    simp only [validateSets, checkedThen]
    split
    · have h1 := generate_redrawn (hD (2 * i)) (peerDeviceAddress ((mapFind s.extAdv set.handle).getD {}).peerAddress ((mapFind s.extAdv set.handle).getD {}).peerAddressType) hs
      split
      · exact h1
      · have key : ∀ (L : List RlEntry) (st : Le.State), st.resolvingList = L → (L.map RlEntry.key).Nodup →
            Redrawn D L (validateSets cfg rnd (i + 1) sets st).1.resolvingList := by
          intro L st h hL
          subst h
          exact ih _ _ hL
        exact h1.trans (key _ _ rfl (h1.nodup hs))
    · exact .refl _ _

/-- What a command does to the addresses. -/
inductive CmdReads (cfg : Config) (s s' : Le.State) (c : Cmd) (e : Status) : Prop
  | redrawn (h1 : Redrawn (draws (.cmd c)) s.resolvingList s'.resolvingList)
      (h2 : ∀ t i, forgets (.cmd c) ⟨some e, []⟩ t i = false)
  | add (t : PeerAddressType) (a : Address) (pk lk : Irk) (hc : c = .addResolving t a pk lk)
      (h : s'.resolvingList = s.resolvingList ++ [⟨t, a, pk, lk, .network, none, none⟩])
  | remove (t : PeerAddressType) (a : Address) (hc : c = .removeResolving t a) (he : e = .success)
      (h : s'.resolvingList = s.resolvingList.eraseP (fun e => e.peerType == t && e.peerAddress == a))
  | clear (hc : c = .clearResolving) (he : e = .success) (h : s'.resolvingList = [])

theorem runCmd_reads {cfg : Config} {s s' : Le.State} {c : Cmd} {e : Status} (hn : (s.resolvingList.map RlEntry.key).Nodup)
    (h : runCmd cfg s c = .ret s' e) : CmdReads cfg s s' c e := by
  by_cases hw : c.writesResolving = false
  · refine .redrawn (by rw [runCmd_resolving hw h]; exact .refl _ _) ?_
    intro t i
    cases c <;> first | rfl | (cases hw; done)
  · cases c
    case setExtAdvertisingEnable now rnd enable sets =>
      refine .redrawn ?_ (fun _ _ => rfl)
      have h := runCmd_extEnable h
      simp only [setExtAdvertisingEnable] at h
      split at h
      · cases h; exact .refl _ _
      · split at h
        · cases h
        · cases h; exact .refl _ _
        · split at h
          · cases h; exact .refl _ _
          · split at h
            · cases h; exact .refl _ _
            · split at h
              · cases h; exact .refl _ _
              · have hv := validateSets_redrawn cfg (D := draws (.cmd (.setExtAdvertisingEnable now rnd enable sets))) (rnd := rnd) (fun j k => ⟨j, rfl⟩) sets 0 { s with extendedInUse := true } hn
                split at h
                · cases h; exact hv
                · cases h; exact hv
    case addResolving t a pk lk =>
      obtain ⟨rfl, -⟩ := runCmd_ret_of h
      by_cases hf : (addResolving cfg s t a pk lk).2 = .success
      · refine .add t a pk lk rfl ?_
        simp only [addResolving, checked, checkedThen] at hf ⊢
        split at hf
        · rename_i h1; rw [if_pos h1]
        · rename_i h1; exact absurd hf h1
      · refine .redrawn ?_ (fun _ _ => rfl)
        simp only [addResolving, checked, checkedThen] at hf ⊢
        split at hf
        · exact absurd rfl hf
        · rename_i h1; rw [if_neg h1]; exact .refl _ _
    case removeResolving t a =>
      obtain ⟨rfl, rfl⟩ := runCmd_ret_of h
      by_cases hf : (removeResolving s t a).2 = .success
      · refine .remove t a rfl hf ?_
        simp only [removeResolving, checked, checkedThen] at hf ⊢
        split at hf
        · rename_i h1; rw [if_pos h1]
        · rename_i h1; exact absurd hf h1
      · refine .redrawn ?_ (fun t i => ?_)
        · simp only [removeResolving, checked, checkedThen] at hf ⊢
          split at hf
          · exact absurd rfl hf
          · rename_i h1; rw [if_neg h1]; exact .refl _ _
        · simp [forgets, hf]
    case clearResolving =>
      obtain ⟨rfl, rfl⟩ := runCmd_ret_of h
      by_cases hf : (clearResolving s).2 = .success
      · refine .clear rfl hf ?_
        simp only [clearResolving, checked, checkedThen] at hf ⊢
        split at hf
        · rename_i h1; rw [if_pos h1]
        · rename_i h1; exact absurd hf h1
      · refine .redrawn ?_ (fun t i => ?_)
        · simp only [clearResolving, checked, checkedThen] at hf ⊢
          split at hf
          · exact absurd rfl hf
          · rename_i h1; rw [if_neg h1]; exact .refl _ _
        · simp [forgets, hf]
    case setPrivacyMode t a m =>
      obtain ⟨rfl, -⟩ := runCmd_ret_of h
      refine .redrawn ?_ (fun _ _ => rfl)
      simp only [setPrivacyMode, checked, checkedThen]
      split
      · have hl : ∀ l : List RlEntry, localView (modifyFirst (fun e => e.peerType == t && e.peerAddress == a) (fun e => { e with privacyMode := m }) l) = localView l :=
          fun l => modifyFirst_same _ _ _ (fun _ => by rfl) l
        exact ⟨modifyFirst_same _ _ _ (fun _ => by rfl) _, modifyFirst_same _ _ _ (fun _ => by rfl) _, fun t i => .inl (by rw [hl])⟩
      · exact .refl _ _
    case setAdvertisingEnable now rnd en =>
      obtain ⟨rfl, -⟩ := runCmd_ret_of h
      refine .redrawn ?_ (fun _ _ => rfl)
      unfold_handlers
      repeat' split
      all_goals first | exact .refl _ _ | exact generate_redrawn (fun k => ⟨0, rfl⟩) _ hn
    case createConnection rnd _ _ _ _ =>
      obtain ⟨rfl, -⟩ := runCmd_ret_of h
      refine .redrawn ?_ (fun _ _ => rfl)
      unfold_handlers
      repeat' split
      all_goals first | exact .refl _ _ | exact generate_redrawn (rnd := rnd) (fun k => by exact rfl) _ hn
    case extendedCreateConnection rnd _ _ _ _ _ =>
      obtain ⟨rfl, -⟩ := runCmd_ret_of h
      refine .redrawn ?_ (fun _ _ => rfl)
      unfold_handlers
      repeat' split
      all_goals first | exact .refl _ _ | exact generate_redrawn (rnd := rnd) (fun k => by exact rfl) _ hn
    all_goals exact absurd rfl hw

theorem read_erase (g : RlEntry → View) (hg : ∀ e, keyOf (g e) = e.key) (t : PeerAddressType) (i : Address) (t' : PeerAddressType) (i' : Address) :
    ∀ {l : List RlEntry}, (l.map RlEntry.key).Nodup →
    readIn ((l.eraseP (fun e => e.peerType == t && e.peerAddress == i)).map g) t' i' =
      if t = t' ∧ i = i' then none else readIn (l.map g) t' i'
  | [], _ => by simp [readIn]
  | e :: l, hn => by
    simp only [List.map_cons, List.nodup_cons] at hn
    have hkeys : ∀ l : List RlEntry, (l.map g).map keyOf = l.map RlEntry.key := by
      intro l; simp only [List.map_map]; exact List.map_congr_left fun e _ => hg e
    have hskip : ∀ l', ¬ (e.peerType = t' ∧ e.peerAddress = i') → readIn (g e :: l') t' i' = readIn l' t' i' := by
      intro l' hk
      have hk' : ¬ ((g e).1 = t' ∧ (g e).2.1 = i') := by
        rintro ⟨h1, h2⟩
        have := hg e
        simp only [keyOf, RlEntry.key, Prod.mk.injEq] at this
        exact hk ⟨this.1.symm.trans h1, this.2.symm.trans h2⟩
      simp only [readIn, List.findSome?_cons, if_neg hk']
    by_cases hq : e.peerType = t ∧ e.peerAddress = i
    · rw [List.eraseP_cons_of_pos (by simp [hq])]
      by_cases hk : t = t' ∧ i = i'
      · rw [if_pos hk]
        apply read_absent
        rw [hkeys]
        intro hc
        apply hn.1
        simp only [RlEntry.key, hq.1, hq.2, hk.1, hk.2]
        exact hc
      · rw [if_neg hk, List.map_cons, hskip _ (by rw [hq.1, hq.2]; exact hk)]
    · rw [List.eraseP_cons_of_neg (by simpa using hq), List.map_cons, List.map_cons]
      have ih := read_erase g hg t i t' i' hn.2
      by_cases hk : e.peerType = t' ∧ e.peerAddress = i'
      · have hne : ¬ (t = t' ∧ i = i') := by
          rintro ⟨rfl, rfl⟩; exact hq hk
        rw [if_neg hne] at ih ⊢
        simp only [readIn, List.findSome?_cons] at ih ⊢
        rw [ih]
      · rw [hskip _ hk, hskip _ hk, ih]

end Verif.Ll
