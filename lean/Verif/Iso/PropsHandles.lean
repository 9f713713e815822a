import Verif.Iso.Lemmas
import Batteries.Data.List.Perm
/-!
# C26: CIS and BIS connection handles

Every theorem quantifies over `Reachable` states: all histories of commands, packets from peers, link changes
and iteration orders.
-/

namespace Verif.Iso

open Verif.Le

/-- The environment of the examples: everything is supported and every advertising set is periodic. -/
def fullEnv : Env := ⟨true, true, true, fun _ => some true⟩

/-- An `LL_CIS_REQ` for CIG 1, CIS 1. -/
def exampleReq : CisReq := ⟨1, 1, 1, 1, 0, 100, 100, 10000, 10000, 100, 100, 1, 10000, 1, 1, 1, 1, 8⟩

/-- A command that configures the CISes 1 and 2 of CIG 3. -/
def exampleCig : Cmd :=
  .setCig 3 10000 10000 false 20 20 [⟨1, { maxSduC := 100, maxSduP := 50, phyC := 1, phyP := 3 }⟩,
    ⟨2, { maxSduC := 100, maxSduP := 0, phyC := 2, phyP := 2 }⟩]

/-- A history with two CISes configured as central and one requested by a peer, and a BIG with three BISes. -/
def exampleHistory : List (Env × Op) :=
  [(fullEnv, .addLink 0x10 .central), (fullEnv, .addLink 0x11 .peripheral), (fullEnv, .hci exampleCig),
    (fullEnv, .llcp 0x11 (.cisReq exampleReq)), (fullEnv, .hci (.createBig 1 1 3 10000 100 10 1))]

/-- The state after a history. -/
def stateAfter (ops : List (Env × Op)) : State :=
  match run {} ops with
  | .ok (s, _) => s
  | .error _ => {}

theorem stateAfter_reachable (ops : List (Env × Op)) : Reachable (stateAfter ops) := by
  unfold stateAfter
  cases h : run {} ops with
  | ok r => exact ⟨ops, r.2, h⟩
  | error f => exact ⟨[], [], rfl⟩

def exampleState : State := stateAfter exampleHistory

/-- No two CISes share a handle and all handles are in the range of the specification. -/
theorem C26_cis_handles {s : State} (hr : Reachable s) :
    (s.cises.map (·.handle)).Nodup ∧ ∀ c ∈ s.cises, 0xE00 ≤ c.handle ∧ c.handle ≤ 0xEFE := by
  have hi := reachable_inv hr
  refine ⟨?_, fun c hc => ?_⟩
  · have := hi.ids.nodup
    rw [List.map_map] at this
    exact this
  · have := (hi.cises c hc).range
    omega

/-- No two BISes share a handle and all handles are in the range of the specification. -/
theorem C26_bis_handles {s : State} (hr : Reachable s) :
    (s.bises.map (·.handle)).Nodup ∧ ∀ b ∈ s.bises, 0xD00 ≤ b.handle ∧ b.handle ≤ 0xDFE := by
  have hi := reachable_inv hr
  refine ⟨hi.bisNodup, fun b hb => ?_⟩
  have := hi.bisRange b hb
  omega

example : exampleState.cises.map (·.handle) = [0xE00, 0xE01, 0xE02] ∧
    exampleState.bises.map (·.handle) = [0xD00, 0xD01, 0xD02] := by decide +kernel

/-- A request of a peer gets a handle that was not in use, which is the one announced to the host. It fails
only if the handles 0xE00 to 0xEFD are all in use. -/
theorem C26_peer_request_partial (env : Env) (s : State) (acl : Nat) (r : CisReq) :
    (∃ c, (∀ x ∈ s.cises, x.handle ≠ c.handle) ∧ (0xE00 ≤ c.handle ∧ c.handle ≤ 0xEFE) ∧
      c.role = .peripheral ∧ c.cigId = r.cigId ∧ c.cisId = r.cisId ∧ c.acl = some acl ∧
      step env s (.llcp acl (.cisReq r)) = .ok ({ s with cises := s.cises ++ [c] },
        [.event (.cisRequest acl c.handle r.cigId r.cisId)])) ∨
    (step env s (.llcp acl (.cisReq r)) = .error .panic ∧
      ∀ h, 0xE00 ≤ h → h < 0xEFE → ∃ x ∈ s.cises, x.handle = h) := by
  simp only [step, runPdu, cisReq]
  split
  · rename_i hn
    right
    exact ⟨rfl, newCisHandle_none.1 hn⟩
  · rename_i h hn
    left
    obtain ⟨hrange, hfresh⟩ := newCisHandle_some hn
    exact ⟨_, hfresh, ⟨hrange.1, Nat.le_of_lt hrange.2⟩, rfl, rfl, rfl, rfl, rfl⟩

example : ∃ c ∈ exampleState.cises, c.role = .peripheral ∧ c.acl = some 0x11 := by decide +kernel

/-- Requests of a peer take the handles from 0xE00 upwards. -/
theorem requests_run (n : Nat) : ∀ (k : Nat) (s : State), s.cises.map (·.handle) = List.range' 0xe00 k → k + n ≤ 0xfe →
    ∃ s' outs, run s (List.replicate n (fullEnv, .llcp 0x11 (.cisReq exampleReq))) = .ok (s', outs) ∧
      s'.cises.map (·.handle) = List.range' 0xe00 (k + n) := by
  induction n with
  | zero => intro k s h _; exact ⟨s, [], rfl, h⟩
  | succ n ih =>
    intro k s h hk
    have hmem : ∀ x, (∃ c ∈ s.cises, c.handle = x) ↔ 0xe00 ≤ x ∧ x < 0xe00 + k := by
      intro x
      have : x ∈ s.cises.map (·.handle) ↔ 0xe00 ≤ x ∧ x < 0xe00 + k := by rw [h, List.mem_range'_1]
      rw [← this, List.mem_map]
    have hnew : newCisHandle s.cises = some (0xe00 + k) := by
      unfold newCisHandle
      rw [List.find?_eq_some_iff_append]
      refine ⟨?_, List.range' 0xe00 k, List.range' (0xe00 + k + 1) (0xfe - k - 1), ?_, ?_⟩
      · have : ¬ ∃ c ∈ s.cises, c.handle = 0xe00 + k := by rw [hmem]; omega
        simpa using this
      · rw [show 0xe00 + k = 0xe00 + 1 * k by omega, ← List.range'_succ, List.range'_append]
        congr 1
        omega
      · intro x hx
        rw [List.mem_range'_1] at hx
        have := (hmem x).2 hx
        simpa using this
    obtain ⟨s1, o1, hs1, hc1⟩ : ∃ s1 o1, step fullEnv s (.llcp 0x11 (.cisReq exampleReq)) = .ok (s1, o1) ∧
        s1.cises.map (·.handle) = List.range' 0xe00 (k + 1) := by
      simp only [step, runPdu, cisReq, hnew]
      refine ⟨_, _, rfl, ?_⟩
      simp only [List.map_append, List.map_cons, List.map_nil, h]
      rw [List.range'_concat]
      simp
    obtain ⟨s2, o2, hs2, hc2⟩ := ih (k + 1) s1 hc1 (by omega)
    refine ⟨s2, o1 ++ o2, ?_, by rw [hc2]; congr 1; omega⟩
    simp only [List.replicate_succ, run, hs1, hs2]

/-- The handle 0xEFE is never used: after 254 requests the next one fails although 0xEFE is free. -/
theorem C26_last_handle_violated :
    ∃ s, Reachable s ∧ (∀ c ∈ s.cises, c.handle ≠ 0xEFE) ∧
      ∀ env, step env s (.llcp 0x11 (.cisReq exampleReq)) = .error .panic := by
  obtain ⟨s, outs, hrun, hh⟩ := requests_run 254 0 {} rfl (by omega)
  refine ⟨s, ⟨_, _, hrun⟩, ?_, fun env => ?_⟩
  · intro c hc
    have : c.handle ∈ s.cises.map (·.handle) := List.mem_map_of_mem hc
    rw [hh, List.mem_range'_1] at this
    omega
  · have : newCisHandle s.cises = none := by
      rw [newCisHandle_none]
      intro h h1 h2
      have : h ∈ s.cises.map (·.handle) := by rw [hh, List.mem_range'_1]; omega
      simpa using this
    simp only [step, runPdu, cisReq, this]

/-- LE Create BIG is refused, which it is if the BIG exists, or creates the requested number of BISes, numbered from 1, whose handles were not
in use and are the ones in the answer. It fails only if there are not enough free handles. -/
theorem C26_create_big {s : State} (hr : Reachable s) (env : Env) (b a n i m l p : Nat) :
    (∃ e, e ≠ success ∧ step env s (.hci (.createBig b a n i m l p)) = .ok (s, [.event (.createBigStatus e)])) ∨
    (∃ s' new, step env s (.hci (.createBig b a n i m l p)) =
        .ok (s', [.event (.createBigStatus success), .event (.createBigComplete b (new.map (·.handle)))]) ∧
      (∀ g ∈ s.bigs, g.bigHandle ≠ b) ∧ s'.bises = s.bises ++ new ∧ new.map (·.bisId) = List.range' 1 n ∧
      (∀ x ∈ new, x.bigHandle = b ∧ x.maxSdu = m) ∧
      (s'.bises.map (·.handle)).Nodup ∧ ∀ x ∈ new, 0xD00 ≤ x.handle ∧ x.handle ≤ 0xDFE) ∨
    (step env s (.hci (.createBig b a n i m l p)) = .error .panic ∧ 255 < s.bises.length + n) := by
  have hi := reachable_inv hr
  show (∃ e, e ≠ success ∧ createBig env s b a n i m l p = _) ∨
    (∃ s' new, createBig env s b a n i m l p = _ ∧ _) ∨ (createBig env s b a n i m l p = _ ∧ _)
  rcases createBig_cases (env := env) (s := s) (b := b) (a := a) (n := n) (i := i) (m := m) (l := l) (p := p)
    with ⟨e, he, h⟩ | ⟨hnew, -, h⟩
  · exact Or.inl ⟨e, he, h⟩
  · right
    rw [h]
    cases ha : allocateBises b m (List.range' 1 n) s.bises with
    | none =>
      right
      refine ⟨rfl, ?_⟩
      have key : ∀ (is : List Nat) (bises : List Bis), (bises.map (·.handle)).Nodup →
          allocateBises b m is bises = none → 255 < bises.length + is.length := by
        intro is
        induction is with
        | nil => intro bises _ h; cases h
        | cons i is ih =>
          intro bises hn h
          simp only [allocateBises] at h
          split at h
          · rename_i hnone
            have hall := newBisHandle_none.1 hnone
            have hsub : List.Subset (List.range' 0xd00 0xff) (bises.map (·.handle)) := by
              intro x hx
              rw [List.mem_range'_1] at hx
              obtain ⟨y, hy, rfl⟩ := hall x (by omega) (by omega)
              exact List.mem_map_of_mem hy
            have hle := (List.subperm_of_subset List.nodup_range' hsub).length_le
            simp only [List.length_range', List.length_map] at hle
            simp only [List.length_cons]
            omega
          · rename_i h' hh
            split at h
            · rename_i hx
              have := ih _ (by
                rw [List.map_append, List.nodup_append]
                refine ⟨hn, by simp, ?_⟩
                intro x hx y hy
                simp only [List.map_cons, List.map_nil, List.mem_singleton] at hy
                obtain ⟨c, hc, rfl⟩ := List.mem_map.1 hx
                subst hy
                exact (newBisHandle_some hh).2 c hc) hx
              simp only [List.length_append, List.length_cons, List.length_nil] at this
              simp only [List.length_cons]
              omega
            · cases h
      have := key _ _ hi.bisNodup ha
      simpa using this
    | some r =>
      obtain ⟨bises, hs⟩ := r
      left
      obtain ⟨new, h1, h2, h3, h4⟩ := allocateBises_spec ha
      obtain ⟨h5, h6⟩ := allocateBises_fresh hi.bisNodup hi.bisRange ha
      refine ⟨{ s with bigs := s.bigs ++ [⟨b, a, n⟩], bises := bises }, new, by rw [h2], by simpa using hnew, h1, h3,
        fun x hx => ⟨(h4 x hx).1, (h4 x hx).2.1⟩, h5, ?_⟩
      intro x hx
      have := h6 x (by rw [h1]; exact List.mem_append_right _ hx)
      omega

example : exampleState.bises.map (fun x => (x.bigHandle, x.bisId)) = [(1, 1), (1, 2), (1, 3)] := by
  decide +kernel

/-- Terminating a BIG removes it and its BISes and no others. -/
theorem C26_terminate_big {s s' : State} {env : Env} {b : Nat} {r : ErrorCode} {outs : List Out}
    (h : step env s (.hci (.terminateBig b r)) = .ok (s', outs)) (hs : .event (.terminateBigStatus success) ∈ outs) :
    (∀ x, x ∈ s'.bises ↔ x ∈ s.bises ∧ x.bigHandle ≠ b) ∧ (∀ x, x ∈ s'.bigs ↔ x ∈ s.bigs ∧ x.bigHandle ≠ b) := by
  simp only [step, runCmd, terminateBig] at h
  split at h
  · obtain ⟨-, rfl⟩ := answer_ok h; simp [invalidParameters, success] at hs
  · split at h
    · obtain ⟨-, rfl⟩ := answer_ok h; simp [unknownAdvertisingIdentifier, success] at hs
    · cases h
      simp

example : ∃ s' outs, step fullEnv exampleState (.hci (.terminateBig 1 0x16)) = .ok (s', outs) ∧
    .event (.terminateBigStatus success) ∈ outs ∧ s'.bises = [] := ⟨_, _, rfl, by decide +kernel, by decide +kernel⟩

end Verif.Iso
