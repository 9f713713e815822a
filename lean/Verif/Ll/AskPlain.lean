import Verif.Ll.SpecAsk
import Verif.Ll.InitLemmas
import Verif.Ll.ActiveLemmas
import Verif.Ll.HistLemmas
/-!
# Scanning and initiating as the host asked: what packets leave alone (C109)
-/

namespace Verif.Ll
open Verif.Le

theorem resolveUpdate_content (ah : Hash) (s : Le.State) (a : AddressWithType) :
    (resolveUpdate ah s a).resolvingList.map RlEntry.content = s.resolvingList.map RlEntry.content := by
  unfold resolveUpdate
  split
  · apply modifyFirst_map; intro a; rfl
  · rfl

/-- What the lists say. -/
structure SameLists (a b : Le.State) : Prop where
  random : b.randomAddress = a.randomAddress
  accept : b.filterAcceptList = a.filterAcceptList
  peers : b.resolvingList.map RlEntry.content = a.resolvingList.map RlEntry.content
  resolve : b.resolvingListEnabled = a.resolvingListEnabled
  scanner : b.scanner = a.scanner
  legacy : b.legacyInUse = a.legacyInUse
  extended : b.extendedInUse = a.extendedInUse

/-- What the initiator does. -/
structure SameCall (a b : Initiator) : Prop where
  enable : b.enable = a.enable
  policy : b.filterPolicy = a.filterPolicy
  peer : b.peerAddress = a.peerAddress
  own : b.ownAddressType = a.ownAddressType
  le1m : b.le1m = a.le1m
  pending : b.pendingConnectRequest = a.pendingConnectRequest

/-- Nothing the notes are about has changed. -/
structure Plain (s t : State) : Prop where
  lists : SameLists s.le t.le
  call : SameCall s.le.initiator t.le.initiator
  history : t.history = s.history
  pending : t.pending = s.pending

theorem SameLists.refl (a : Le.State) : SameLists a a := ⟨rfl, rfl, rfl, rfl, rfl, rfl, rfl⟩
theorem SameCall.refl (a : Initiator) : SameCall a a := ⟨rfl, rfl, rfl, rfl, rfl, rfl⟩
theorem Plain.refl (s : State) : Plain s s := ⟨.refl _, .refl _, rfl, rfl⟩

theorem SameLists.trans {a b c : Le.State} (h : SameLists a b) (h' : SameLists b c) : SameLists a c :=
  ⟨h'.1.trans h.1, h'.2.trans h.2, h'.3.trans h.3, h'.4.trans h.4, h'.5.trans h.5, h'.6.trans h.6, h'.7.trans h.7⟩

theorem SameCall.trans {a b c : Initiator} (h : SameCall a b) (h' : SameCall b c) : SameCall a c :=
  ⟨h'.1.trans h.1, h'.2.trans h.2, h'.3.trans h.3, h'.4.trans h.4, h'.5.trans h.5, h'.6.trans h.6⟩

theorem Plain.trans {a b c : State} (h : Plain a b) (h' : Plain b c) : Plain a c :=
  ⟨h.1.trans h'.1, h.2.trans h'.2, h'.3.trans h.3, h'.4.trans h.4⟩

theorem sameLists_update (ah : Hash) (s : Le.State) (a : AddressWithType) : SameLists s (resolveUpdate ah s a) := by
  have hc := resolveUpdate_content ah s a
  obtain ⟨r, hr⟩ := resolveUpdate_frame ah s a
  rw [hr] at hc ⊢
  exact ⟨rfl, rfl, hc, rfl, rfl, rfl, rfl⟩

theorem initiator_update (ah : Hash) (s : Le.State) (a : AddressWithType) :
    (resolveUpdate ah s a).initiator = s.initiator := by
  obtain ⟨r, hr⟩ := resolveUpdate_frame ah s a; rw [hr]

theorem plain_update (ah : Hash) (s : State) (a : AddressWithType) :
    Plain s { s with le := resolveUpdate ah s.le a } :=
  ⟨sameLists_update ah s.le a, by simp only [initiator_update]; exact .refl _, rfl, rfl⟩

theorem sameLists_generated (rnd : Irk → Address) (s : Le.State) (r : AddressWithType) : SameLists s (generated rnd s r) :=
  ⟨rfl, rfl, generateRpa_content _ _ _ _, rfl, rfl, rfl, rfl⟩

theorem plain_handleConnection {s : State} {c : LeConn} {ch : Bool} {x : Nat × State × List Out}
    (h : handleConnection s c ch = .ok x) : Plain s x.2.1 := by
  unfold handleConnection at h
  split at h
  · cases h
  split at h
  · cases h
  · cases h; exact ⟨⟨rfl, rfl, rfl, rfl, rfl, rfl, rfl⟩, ⟨rfl, rfl, rfl, rfl, rfl, rfl⟩, rfl, rfl⟩

/-- Outputs the notes are not about. -/
structure Silent (out : List Out) : Prop where
  told : told out = false
  scans : scanRequestsOf out = []
  asks : requestsOf out = []
  back : calledBack out = false

theorem Silent.nil : Silent [] := ⟨rfl, rfl, rfl, rfl⟩

theorem Silent.append {a b : List Out} (h : Silent a) (h' : Silent b) : Silent (a ++ b) := by
  obtain ⟨h1, h2, h3, h4⟩ := h
  obtain ⟨g1, g2, g3, g4⟩ := h'
  simp only [Verif.Ll.told, scanRequestsOf, requestsOf, calledBack] at *
  exact ⟨by simp only [Verif.Ll.told, List.any_append, h1, g1, Bool.or_self],
    by simp only [scanRequestsOf, List.filterMap_append, h2, g2, List.append_nil],
    by simp only [requestsOf, List.filterMap_append, h3, g3, List.append_nil],
    by simp only [calledBack, List.any_append, h4, g4, Bool.or_self]⟩

theorem silent_handle {s : State} {c : LeConn} {x : Nat × State × List Out} (hc : c.role = .peripheral)
    (h : handleConnection s c false = .ok x) : Silent x.2.2 := by
  obtain ⟨last, -, -, -, -, -, -, -, -, ho⟩ := handleConnection_cases h
  rw [ho]
  exact ⟨rfl, rfl, rfl, by simp [calledBack, hc]⟩

theorem legacyConnect_plain {ah : Hash} {s : State} {init adv : AddressWithType} {q : LinkParams}
    {x : Bool × State × List Out} (h : legacyConnect ah s init adv q = .ok x) : Plain s x.2.1 ∧ Silent x.2.2 := by
  have hu := plain_update ah s init
  simp only [legacyConnect] at h
  split at h
  · cases h; exact ⟨.refl _, .nil⟩
  split at h
  · cases h; exact ⟨.refl _, .nil⟩
  split at h
  · cases h; exact ⟨.refl _, .nil⟩
  split at h
  · cases h; exact ⟨hu, .nil⟩
  obtain ⟨y, hy, hx⟩ := Res.bind_eq_ok h
  cases hx
  have hp := hu.trans (plain_handleConnection hy)
  exact ⟨⟨⟨hp.1.1, hp.1.2, hp.1.3, hp.1.4, hp.1.5, hp.1.6, hp.1.7⟩, hp.2, hp.3, hp.4⟩,
    (silent_handle rfl hy).append ⟨rfl, rfl, rfl, rfl⟩⟩

theorem extConnect_plain {ah : Hash} {s : State} {h : UInt8} {a : ExtAdv} {init adv : AddressWithType} {q : LinkParams}
    {x : Bool × State × List Out} (he : extConnect ah s h a init adv q = .ok x) : Plain s x.2.1 ∧ Silent x.2.2 := by
  have hu := plain_update ah s init
  simp only [extConnect] at he
  split at he
  · cases he; exact ⟨.refl _, .nil⟩
  split at he
  · cases he; exact ⟨.refl _, .nil⟩
  split at he
  · cases he; exact ⟨.refl _, .nil⟩
  split at he
  · cases he; exact ⟨hu, .nil⟩
  obtain ⟨y, hy, hx⟩ := Res.bind_eq_ok he
  cases hx
  refine ⟨Plain.trans ?_ (plain_handleConnection hy), (silent_handle rfl hy).append ⟨rfl, rfl, rfl, rfl⟩⟩
  exact ⟨⟨hu.1.1, hu.1.2, hu.1.3, hu.1.4, hu.1.5, hu.1.6, hu.1.7⟩, hu.2, hu.3, hu.4⟩

theorem extConnectAll_plain {ah : Hash} {init adv : AddressWithType} {q : LinkParams}
    (l : List (UInt8 × ExtAdv)) : ∀ {s : State} {x : State × List Out},
      extConnectAll ah init adv q l s = .ok x → Plain s x.1 ∧ Silent x.2 := by
  induction l with
  | nil => intro s x h; cases h; exact ⟨.refl _, .nil⟩
  | cons e l ih =>
    intro s x h
    obtain ⟨k, a⟩ := e
    simp only [extConnectAll] at h
    obtain ⟨⟨b, s1, o1⟩, hy, hx⟩ := Res.bind_eq_ok h
    have h1 := extConnect_plain hy
    cases b with
    | true => cases hx; exact h1
    | false => exact ⟨h1.1.trans (ih hx).1, (ih hx).2⟩

/-- Packets that have nothing to do with scanning and initiating. -/
def Packet.apart : Packet → Bool
  | .periodic _ => true
  | .connect .. => true
  | .scan .. => true
  | .link .. => true
  | _ => false

theorem silent_periodic (l : List (Nat × Synchronized)) (f : Nat × Synchronized → List (Bool × List UInt8)) :
    Silent (l.flatMap fun x => (f x).map fun f => .periodicReport x.1 f.1 f.2) := by
  induction l with
  | nil => exact .nil
  | cons a l ih =>
    rw [List.flatMap_cons]
    refine Silent.append ?_ ih
    induction f a with
    | nil => exact .nil
    | cons b m ih => exact Silent.append (a := [_]) ⟨rfl, rfl, rfl, rfl⟩ ih

theorem silent_scanned {s : Le.State} {scanner r adv : AddressWithType} (l : List (UInt8 × ExtAdv)) :
    Silent (legacyScanned s scanner r adv ++ l.flatMap (fun e => extScanned s e.2 scanner r adv)) := by
  refine Silent.append ?_ ?_
  · unfold legacyScanned; split
    · exact ⟨rfl, rfl, rfl, rfl⟩
    · exact .nil
  · induction l with
    | nil => exact .nil
    | cons a l ih =>
      rw [List.flatMap_cons]
      refine Silent.append ?_ ih
      unfold extScanned; split
      · exact ⟨rfl, rfl, rfl, rfl⟩
      · exact .nil

theorem receive_plain {ah : Hash} {cfg : Config} {rnd : Irk → Address} {now : Nat} {s : State}
    {p : Packet} {x : State × List Out} (hp : p.apart = true) (h : receive ah cfg rnd now s p = .ok x) :
    Plain s x.1 ∧ Silent x.2 := by
  cases p with
  | legacyAdv p => cases hp
  | extAdv p => cases hp
  | scanResponse _ _ _ => cases hp
  | connectComplete _ _ _ => cases hp
  | periodic p =>
    have hu := plain_update ah s p.adv
    simp only [receive, periodicPdu] at h
    split at h
    · cases h; exact ⟨.refl _, .nil⟩
    split at h
    · cases h; exact ⟨.refl _, .nil⟩
    split at h
    · split at h
      · cases h; exact ⟨hu, .nil⟩
      · split at h
        · cases h
        · cases h
          exact ⟨⟨⟨hu.1.1, hu.1.2, hu.1.3, hu.1.4, hu.1.5, hu.1.6, hu.1.7⟩, hu.2, hu.3, hu.4⟩, ⟨rfl, rfl, rfl, rfl⟩⟩
    · cases h; exact ⟨hu, silent_periodic _ _⟩
  | connect init adv q =>
    simp only [receive, incomingConnect] at h
    obtain ⟨⟨b, s1, o1⟩, hy, hx⟩ := Res.bind_eq_ok h
    have h1 := legacyConnect_plain hy
    cases b with
    | true => cases hx; exact h1
    | false => exact ⟨h1.1.trans (extConnectAll_plain _ hx).1, (extConnectAll_plain _ hx).2⟩
  | scan sc adv =>
    cases h
    exact ⟨plain_update ah s sc, silent_scanned _⟩
  | link a b c =>
    simp only [receive, incomingLink] at h
    split at h
    · cases h; exact ⟨.refl _, .nil⟩
    split at h
    · cases h; exact ⟨.refl _, ⟨rfl, rfl, rfl, rfl⟩⟩
    · split at h
      · cases h
      · rename_i hr
        obtain ⟨-, rfl⟩ := removeConnection_cases hr
        cases h
        exact ⟨⟨.refl _, .refl _, rfl, rfl⟩, ⟨rfl, rfl, rfl, rfl⟩⟩
    · cases h; exact ⟨.refl _, ⟨rfl, rfl, rfl, rfl⟩⟩

/-- The response of a device that was called. -/
theorem receive_complete {ah : Hash} {cfg : Config} {rnd : Irk → Address} {now : Nat} {s : State}
    {init adv : AddressWithType} {q : LinkParams} {x : State × List Out}
    (h : receive ah cfg rnd now s (.connectComplete init adv q) = .ok x) :
    SameLists s.le x.1.le ∧ x.1.history = s.history ∧ x.1.pending = s.pending ∧ told x.2 = false ∧ scanRequestsOf x.2 = [] ∧
      ((x.1 = s ∧ x.2 = []) ∨ (calledBack x.2 = true ∧ x.1.le.initiator.enable = false)) := by
  simp only [receive, incomingConnectComplete] at h
  split at h
  · cases h; exact ⟨.refl _, rfl, rfl, rfl, rfl, .inl ⟨rfl, rfl⟩⟩
  obtain ⟨y, hy, hx⟩ := Res.bind_eq_ok h
  cases hx
  have hp := (plain_update ah s adv).trans (plain_handleConnection hy)
  obtain ⟨last, -, -, -, -, -, -, -, -, ho⟩ := handleConnection_cases hy
  refine ⟨⟨hp.1.1, hp.1.2, hp.1.3, hp.1.4, hp.1.5, hp.1.6, hp.1.7⟩, hp.3, hp.4, ?_, ?_, .inr ⟨?_, rfl⟩⟩
  all_goals rw [ho]; cases s.le.extendedInUse <;> rfl

end Verif.Ll
