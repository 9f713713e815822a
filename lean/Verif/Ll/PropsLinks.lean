import Verif.Ll.LinksLemmas
import Verif.Ll.PropsConn
/-!
# C113: the host knows its LE connections

The host keeps the list of `SpecLinks.lean` from the LE Connection Complete and
Disconnection Complete events alone. The theorems say that the controller acts on exactly
the connections of this list, whatever has happened before.
-/

namespace Verif.Ll
open Verif.Le

/-- Data sent on a connection of the list goes to its other end, in one packet, unaltered;
data sent on any other handle goes nowhere. The host gets its buffer back once in both cases. -/
theorem C113_send {ah : Hash} {cfg : Config} {a : Option Address} {ops : List Op} {s : State} {l : Links}
    (h : runLinks ah cfg ops (initial a) Links.none = .ok (s, l)) (k pb : Nat) (d : List UInt8) :
    step ah cfg s (.sendAcl k pb 0 d) = .ok (s, ⟨none,
      (match l k with
        | some c => [.send (.link c.own.address c.address.address (.acl pb 0 d))]
        | none => []) ++ [.completedPackets k]⟩) := by
  have hK := listing_run (listing_initial a) h k
  simp only [step, handleAcl, ne_eq, not_true_eq_false, if_false]
  rw [hK]
  cases l k <;> rfl

/-- A packet of a connection reaches the host on a connection of the list, between the
packet's addresses, as one event that holds what was sent; if the list has no such
connection, it has no effect. -/
theorem C113_receive {ah : Hash} {cfg : Config} {a : Option Address} {ops : List Op} {s : State} {l : Links}
    (h : runLinks ah cfg ops (initial a) Links.none = .ok (s, l)) (rnd : Irk → Address) (now : Nat)
    (peer own : Address) (b : Body) :
    (∃ k c t, l k = some c ∧ c.between peer own ∧
      step ah cfg s (.receive rnd now (.link peer own b)) = .ok (t, ⟨none, [passedOn k b]⟩)) ∨
    ((∀ k c, l k = some c → ¬ c.between peer own) ∧
      step ah cfg s (.receive rnd now (.link peer own b)) = .ok (s, ⟨none, []⟩)) := by
  have hK := listing_run (listing_initial a) h
  have hs : Reachable ah cfg s := by
    obtain ⟨obs, ho⟩ := runLinks_reachable h
    exact ⟨a, ops, obs, ho⟩
  have hn := (connsOk_reachable hs).sound.nodup
  by_cases hc : HasConnection s peer own
  · left
    obtain ⟨k, c, t, out, hm, h1, h2, hx, he⟩ := C37_known_processed hs (rnd := rnd) (now := now) b hc
    refine ⟨k, c, t, by rw [← hK k]; exact Conn.mem_find _ hn _ _ hm, ⟨h1, h2⟩, ?_⟩
    rw [hx]
    cases b <;> (obtain ⟨-, rfl⟩ := he; rfl)
  · right
    refine ⟨?_, C37_unknown_ignored hc⟩
    intro k c hl hb
    rw [← hK k] at hl
    exact hc ⟨k, c, Conn.find_mem _ _ _ hl, hb.1, hb.2⟩

/-- If the list has one connection only between two addresses, their packets reach the host
on that one. -/
theorem C113_receive_on {ah : Hash} {cfg : Config} {a : Option Address} {ops : List Op} {s : State} {l : Links}
    (h : runLinks ah cfg ops (initial a) Links.none = .ok (s, l)) (rnd : Irk → Address) (now : Nat)
    {k : Nat} {c : LeConn} (hk : l k = some c)
    (hu : ∀ i e, l i = some e → e.between c.address.address c.own.address → i = k) (b : Body) :
    ∃ t, step ah cfg s (.receive rnd now (.link c.address.address c.own.address b)) =
      .ok (t, ⟨none, [passedOn k b]⟩) := by
  rcases C113_receive h rnd now c.address.address c.own.address b with ⟨i, e, t, h1, h2, h3⟩ | ⟨h1, -⟩
  · rw [hu i e h1 h2] at h3
    exact ⟨t, h3⟩
  · exact absurd ⟨rfl, rfl⟩ (h1 k c hk)

/-- HCI Disconnect of a connection of the list tells the other end and ends it, of any other
handle it does nothing; nothing else is sent or reported. -/
theorem C113_disconnect {ah : Hash} {cfg : Config} {a : Option Address} {ops : List Op} {s : State} {l : Links}
    (h : runLinks ah cfg ops (initial a) Links.none = .ok (s, l)) (k r own : Nat) :
    ∃ t, step ah cfg s (.disconnect k r own) = .ok (t, ⟨none,
      match l k with
      | some c => [.send (.link c.own.address c.address.address (.disconnect r)), .disconnected k own]
      | none => []⟩) := by
  have hK := listing_run (listing_initial a) h k
  have hs : Reachable ah cfg s := by
    obtain ⟨obs, ho⟩ := runLinks_reachable h
    exact ⟨a, ops, obs, ho⟩
  simp only [step, disconnect]
  cases hl : l k with
  | none =>
    rw [hl] at hK
    simp only [hK, Res.bind]
    exact ⟨_, rfl⟩
  | some c =>
    rw [hl] at hK
    have hm : k ∈ s.links := ((connsOk_reachable hs).links k).mpr
      (List.mem_map.mpr ⟨_, Conn.find_mem _ _ _ hK, rfl⟩)
    simp only [hK, removeConnection, if_pos (List.contains_iff_mem.mpr hm), Res.bind]
    exact ⟨_, rfl⟩

/-- HCI Reset tells the other end of every connection of the list, and sends nothing else. -/
theorem C113_reset {ah : Hash} {cfg : Config} {a : Option Address} {ops : List Op} {s : State} {l : Links}
    (h : runLinks ah cfg ops (initial a) Links.none = .ok (s, l)) :
    ∃ t out, step ah cfg s .reset = .ok (t, ⟨none, out⟩) ∧
      ∀ o, o ∈ out ↔ ∃ k c, l k = some c ∧ o = .send (.link c.own.address c.address.address (.disconnect 0x13)) := by
  have hK := listing_run (listing_initial a) h
  have hs : Reachable ah cfg s := by
    obtain ⟨obs, ho⟩ := runLinks_reachable h
    exact ⟨a, ops, obs, ho⟩
  have hn := (connsOk_reachable hs).sound.nodup
  refine ⟨_, _, rfl, ?_⟩
  intro o
  simp only [reset, disconnectAll, remoteUserTerminated, List.mem_map]
  constructor
  · rintro ⟨⟨k, c⟩, hm, rfl⟩
    exact ⟨k, c, by rw [← hK k]; exact Conn.mem_find _ hn _ _ hm, rfl⟩
  · rintro ⟨k, c, hl, rfl⟩
    rw [← hK k] at hl
    exact ⟨(k, c), Conn.find_mem _ _ _ hl, rfl⟩

/-- A connection that begins gets a handle of the LE range that no connection of the list
has; a connection that ends is one of the list; and one operation begins or ends one
connection at most. -/
theorem C113_told {ah : Hash} {cfg : Config} {a : Option Address} {ops : List Op} {s : State} {l : Links}
    (h : runLinks ah cfg ops (initial a) Links.none = .ok (s, l)) {o : Op} {x : State × Obs}
    (hx : step ah cfg s o = .ok x) :
    (∀ k c, .connected k c ∈ x.2.out → l k = none ∧ 0x200 ≤ k ∧ k ≤ 0x2FF) ∧
    (∀ k r, .disconnected k r ∈ x.2.out → (l k).isSome) ∧
    (x.2.out.filter (fun e => match e with | .connected .. => true | .disconnected .. => true | _ => false)).length ≤ 1 := by
  have hK := listing_run (listing_initial a) h
  have hs : Reachable ah cfg s := by
    obtain ⟨obs, ho⟩ := runLinks_reachable h
    exact ⟨a, ops, obs, ho⟩
  have hok := connsOk_reachable hs
  have hnews : x.2.out.filter (fun e => match e with | .connected .. => true | .disconnected .. => true | _ => false) =
      news x.2.out := by
    unfold news
    congr 1
  rw [hnews]
  have hin : ∀ e ∈ x.2.out, e.isNews = true → e ∈ news x.2.out := fun e he hn => List.mem_filter.2 ⟨he, hn⟩
  have nothing : news x.2.out = [] → (∀ k c, .connected k c ∈ x.2.out → l k = none ∧ 0x200 ≤ k ∧ k ≤ 0x2FF) ∧
      (∀ k r, .disconnected k r ∈ x.2.out → (l k).isSome) ∧ (news x.2.out).length ≤ 1 := by
    intro hnil
    refine ⟨fun k c hc => ?_, fun k r hc => ?_, by rw [hnil]; exact Nat.zero_le _⟩ <;>
    · have := hin _ hc rfl
      rw [hnil] at this
      cases this
  cases step_links hx with
  | same h1 h2 => exact nothing h2
  | add k c last h0 h1 h2 =>
    refine ⟨fun k' c' hc => ?_, fun k' r hc => ?_, by rw [h2]; exact Nat.le_refl _⟩
    · have := hin _ hc rfl
      rw [h2] at this
      rcases List.mem_singleton.1 this with he
      cases he
      obtain ⟨g1, g2, g3⟩ := unused_handle hok h0
      exact ⟨by rw [← hK k]; exact (Conn.find_none_iff _ _).2 g1, g2, g3⟩
    · have := hin _ hc rfl
      rw [h2] at this
      cases List.mem_singleton.1 this
  | remove k r h0 h1 h2 =>
    refine ⟨fun k' c' hc => ?_, fun k' r' hc => ?_, by rw [h2]; exact Nat.le_refl _⟩
    · have := hin _ hc rfl
      rw [h2] at this
      cases List.mem_singleton.1 this
    · have := hin _ hc rfl
      rw [h2] at this
      cases List.mem_singleton.1 this
      rw [← hK k]
      exact (Conn.find_isSome_iff _ _).2 ((hok.links k).1 h0)
  | reset h1 =>
    cases hx
    apply nothing
    apply news_nil
    intro e he hn
    obtain ⟨y, -, rfl⟩ := List.mem_map.1 he
    cases hn

/-- Keeping the list does not change what happens: a run of the controller is a run with a
list. -/
theorem C113_list {ah : Hash} {cfg : Config} {a : Option Address} {ops : List Op} {s : State} {obs : List Obs}
    (h : run ah cfg ops (initial a) = .ok (s, obs)) :
    ∃ l, runLinks ah cfg ops (initial a) Links.none = .ok (s, l) :=
  runLinks_exists Links.none h

/-! ### Concrete cases -/

/-- Connect to device A. -/
def linked : List Op := attempt ++ [.receive someRnd 0 (.connectComplete centralAddress advertiserA someParams)]

/-- The list at some handles, and what the host and the air see of one more operation. -/
def linksThen (ops : List Op) (o : Op) (ks : List Nat) : Option (List (Option LeConn) × List Out × List (Option LeConn)) :=
  match runLinks (fun _ _ => 0) Config.default ops (initial none) Links.none with
  | .ok (s, l) =>
    match step (fun _ _ => 0) Config.default s o with
    | .ok x => some (ks.map l, x.2.out, ks.map (l.note o x.2))
    | _ => none
  | _ => none

/-- The connection to device A. -/
def linkA : LeConn := ⟨advertiserA, centralAddress, ⟨0, .publicDevice⟩, .central, someParams⟩

/-- Data sent on the connection, and on a handle without one. -/
example :
    linksThen linked (.sendAcl 0x200 0 0 [1, 2]) [0x200, 0x201] = some ([some linkA, none],
      [.send (.link centralAddress.address advertiserA.address (.acl 0 0 [1, 2])), .completedPackets 0x200], [some linkA, none]) ∧
    linksThen linked (.sendAcl 0x201 0 0 [1, 2]) [0x200] = some ([some linkA], [.completedPackets 0x201], [some linkA]) := by
  decide +kernel

/-- The connection ends at the host's wish, at the other end's, and by HCI Reset. -/
example :
    linksThen linked (.disconnect 0x200 0x13 0x16) [0x200] = some ([some linkA],
      [.send (.link centralAddress.address advertiserA.address (.disconnect 0x13)), .disconnected 0x200 0x16], [none]) ∧
    linksThen linked (.receive someRnd 0 (.link advertiserA.address centralAddress.address (.disconnect 0x13))) [0x200] =
      some ([some linkA], [.disconnected 0x200 0x13], [none]) := by
  decide +kernel

example :
    linksThen linked .reset [0x200] = some ([some linkA],
      [.send (.link centralAddress.address advertiserA.address (.disconnect 0x13))], [none]) := by
  decide +kernel

/-- A connection begins. -/
example : linksThen attempt (.receive someRnd 0 (.connectComplete centralAddress advertiserA someParams)) [0x200] =
    some ([none], [.connected 0x200 linkA], [some linkA]) := by
  decide +kernel

end Verif.Ll
