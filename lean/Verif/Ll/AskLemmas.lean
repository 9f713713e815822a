import Verif.Ll.AskScan
import Verif.Le.SelectLemmas
import Verif.Le.ParamLemmas
import Verif.Le.ListLemmas
/-!
# Scanning and initiating as the host asked: the notes and the state (C109)
-/

namespace Verif.Ll
open Verif.Le

/-- What the host knows of an entry of the resolving list. -/
def asPeer (e : RlEntry) : Peer := ⟨e.peerType, e.peerAddress, e.peerIrk, e.localIrk⟩

/-- The entry of the filter accept list is for this device. -/
def onList (t : PeerAddressType) (a : Address) (e : FalEntry) : Bool := sameDevice e.type e.address t a

structure TiedLists (s : Le.State) (n : Ask) : Prop where
  random : s.randomAddress = n.random
  accept : ∀ t a, s.filterAcceptList.countP (onList t a) = n.accept t a
  peers : s.resolvingList.map asPeer = n.peers
  keys : (s.resolvingList.map RlEntry.key).Nodup
  resolve : s.resolvingListEnabled = n.resolve

theorem asPeer_of_content {l l' : List RlEntry} (h : l'.map RlEntry.content = l.map RlEntry.content) :
    l'.map asPeer = l.map asPeer := by
  have : ∀ m : List RlEntry, m.map asPeer = (m.map RlEntry.content).map (fun c => (⟨c.1, c.2.1, c.2.2.1, c.2.2.2.1⟩ : Peer)) := by
    intro m; rw [List.map_map]; rfl
  rw [this, this, h]

theorem TiedLists.same {s t : Le.State} {n : Ask} (h : TiedLists s n) (h1 : t.randomAddress = s.randomAddress)
    (h2 : t.filterAcceptList = s.filterAcceptList) (h3 : t.resolvingList.map RlEntry.content = s.resolvingList.map RlEntry.content)
    (h4 : t.resolvingListEnabled = s.resolvingListEnabled) {m : Ask}
    (g1 : m.random = n.random) (g2 : m.accept = n.accept) (g3 : m.peers = n.peers) (g4 : m.resolve = n.resolve) : TiedLists t m :=
  ⟨by rw [h1, g1]; exact h.1, by rw [h2, g2]; exact h.2, by rw [asPeer_of_content h3, g3]; exact h.3,
   by rw [map_key_of_content h3]; exact h.4, by rw [h4, g4]; exact h.5⟩

/-! ### Commands -/

theorem runCmd_random {cfg : Config} {s s' : Le.State} {c : Cmd} {e : Status}
    (hc : ∀ a, c ≠ .setRandomAddress a) (h : runCmd cfg s c = .ret s' e) : s'.randomAddress = s.randomAddress := by
  cases c
  case setExtAdvertisingEnable =>
    obtain ⟨m, r, x, rfl⟩ := extEnable_frame (runCmd_extEnable h); rfl
  case setRandomAddress a => exact absurd rfl (hc a)
  all_goals
    obtain ⟨rfl, -⟩ := runCmd_ret_of h
    unfold_handlers
    repeat' split
    all_goals first | rfl | (simp_all; done)

theorem runCmd_resolve {cfg : Config} {s s' : Le.State} {c : Cmd} {e : Status}
    (hc : ∀ a, c ≠ .setAddressResolutionEnable a) (h : runCmd cfg s c = .ret s' e) : s'.resolvingListEnabled = s.resolvingListEnabled := by
  cases c
  case setExtAdvertisingEnable =>
    obtain ⟨m, r, x, rfl⟩ := extEnable_frame (runCmd_extEnable h); rfl
  case setAddressResolutionEnable a => exact absurd rfl (hc a)
  all_goals
    obtain ⟨rfl, -⟩ := runCmd_ret_of h
    unfold_handlers
    repeat' split
    all_goals first | rfl | (simp_all; done)

/-- Commands that write the initiator. -/
def writesCall : Cmd → Bool
  | .createConnection .. | .extendedCreateConnection .. | .createConnectionCancel => true
  | _ => false

theorem runCmd_initiator {cfg : Config} {s s' : Le.State} {c : Cmd} {e : Status}
    (hc : writesCall c = false) (h : runCmd cfg s c = .ret s' e) : s'.initiator = s.initiator := by
  cases c
  case setExtAdvertisingEnable =>
    obtain ⟨m, r, x, rfl⟩ := extEnable_frame (runCmd_extEnable h); rfl
  all_goals first | (cases hc; done) | skip
  all_goals
    obtain ⟨rfl, -⟩ := runCmd_ret_of h
    unfold_handlers
    repeat' split
    all_goals first | rfl | (simp_all; done)

/-- Commands that write the lists. -/
def writesLists : Cmd → Bool
  | .setRandomAddress .. | .addResolving .. | .removeResolving .. | .clearResolving | .setPrivacyMode ..
  | .setAddressResolutionEnable .. | .clearFilterAccept | .addFilterAccept .. | .removeFilterAccept .. => true
  | _ => false

theorem accepted_lists (n : Ask) (c : Cmd) (h : writesLists c = false) :
    (n.accepted c).random = n.random ∧ (n.accepted c).accept = n.accept ∧ (n.accepted c).peers = n.peers ∧ (n.accepted c).resolve = n.resolve := by
  cases c
  case setScanEnable e f => cases e <;> exact ⟨rfl, rfl, rfl, rfl⟩
  case setExtendedScanEnable now e fd d p => cases e <;> exact ⟨rfl, rfl, rfl, rfl⟩
  all_goals first | (cases h; done) | exact ⟨rfl, rfl, rfl, rfl⟩

theorem accepted_scan (n : Ask) (c : Cmd) (h : writesScanner c = false) :
    (n.accepted c).policy = n.policy ∧ (n.accepted c).own = n.own ∧ (n.accepted c).le1m = n.le1m ∧ (n.accepted c).coded = n.coded ∧
      (n.accepted c).scan = n.scan := by
  cases c
  all_goals first | (cases h; done) | exact ⟨rfl, rfl, rfl, rfl, rfl⟩

theorem accepted_call (n : Ask) (c : Cmd) (h : writesCall c = false) : (n.accepted c).call = n.call := by
  cases c
  case setScanEnable e f => cases e <;> rfl
  case setExtendedScanEnable now e fd d p => cases e <;> rfl
  all_goals first | (cases h; done) | rfl

theorem sameDevice_self {t : FalAddressType} {a : Address} {e : FalEntry} (h : falMatches t a e = true) (t' : PeerAddressType) (a' : Address) :
    onList t' a' e = sameDevice t a t' a' := by
  obtain ⟨et, ea⟩ := e
  simp only [falMatches, Bool.and_eq_true, Bool.or_eq_true, beq_iff_eq] at h
  obtain ⟨rfl, h⟩ := h
  cases et <;> cases t' <;> simp_all [onList, sameDevice]

theorem not_matches_of {t : FalAddressType} {a : Address} {l : List FalEntry} (h : ∀ e ∈ l, ¬ falMatches t a e = true)
    {t' : PeerAddressType} {a' : Address} (hs : sameDevice t a t' a' = true) : l.countP (onList t' a') = 0 := by
  rw [List.countP_eq_zero]
  intro e he hm
  refine h e he ?_
  obtain ⟨et, ea⟩ := e
  cases t <;> cases t' <;> cases et <;> simp_all [onList, sameDevice, falMatches]

theorem countP_eraseP_fal (t : FalAddressType) (a : Address) (l : List FalEntry) (t' : PeerAddressType) (a' : Address) :
    (l.eraseP (falMatches t a)).countP (onList t' a') = l.countP (onList t' a') - (if sameDevice t a t' a' then 1 else 0) := by
  induction l with
  | nil => simp
  | cons e l ih =>
    by_cases hm : falMatches t a e = true
    · rw [List.eraseP_cons_of_pos hm, List.countP_cons, sameDevice_self hm]
      omega
    · rw [List.eraseP_cons_of_neg hm, List.countP_cons, List.countP_cons, ih]
      by_cases hs : sameDevice t a t' a' = true
      · simp only [hs, if_true]
        have ho : onList t' a' e = false := by
          obtain ⟨et, ea⟩ := e
          revert hm hs
          cases t <;> cases t' <;> cases et <;> simp [onList, sameDevice, falMatches]
          all_goals (intro h1 h2; subst h1; exact h2)
        simp [ho]
      · simp [hs]

theorem filter_eraseP_peer (t : PeerAddressType) (a : Address) (l : List RlEntry) (hn : (l.map RlEntry.key).Nodup) :
    (l.eraseP (fun e => e.peerType == t && e.peerAddress == a)).map asPeer =
      (l.map asPeer).filter (fun e => !(e.type == t && e.address == a)) := by
  induction l with
  | nil => rfl
  | cons e l ih =>
    obtain ⟨h1, h2⟩ := List.nodup_cons.1 hn
    by_cases hm : (e.peerType == t && e.peerAddress == a) = true
    · rw [List.eraseP_cons_of_pos (p := fun e : RlEntry => e.peerType == t && e.peerAddress == a) hm, List.map_cons, List.filter_cons_of_neg (by simp only [asPeer, hm]; exact nofun)]
      symm
      rw [List.filter_eq_self]
      intro p hp
      obtain ⟨e', he', rfl⟩ := List.mem_map.1 hp
      simp only [Bool.and_eq_true, beq_iff_eq] at hm
      simp only [asPeer, Bool.not_eq_true', Bool.and_eq_false_iff, beq_eq_false_iff_ne]
      by_contra hc
      simp only [not_or, not_not] at hc
      refine h1 (List.mem_map.2 ⟨e', he', ?_⟩)
      simp only [RlEntry.key, hm.1, hm.2, hc.1, hc.2]
    · rw [List.eraseP_cons_of_neg (p := fun e : RlEntry => e.peerType == t && e.peerAddress == a) hm, List.map_cons, List.map_cons, ih h2, List.filter_cons_of_pos]
      simp only [asPeer, Bool.not_eq_true']
      simpa using hm

theorem checked_note {N : Type} {P : Le.State → N → Prop} {checks : List (Bool × Status)} {s u : Le.State} {n m : N}
    (h1 : firstError checks = .success → P u m) (h2 : P s n) :
    P (checked checks s u).1 (if (checked checks s u).2 = .success then m else n) := by
  unfold checked checkedThen
  by_cases h : firstError checks = .success
  · rw [if_pos h]; exact h1 h
  · rw [if_neg h]; simp only [if_neg h]; exact h2

theorem lists_cmd {cfg : Config} {s s' : Le.State} {c : Cmd} {e : Status} {n : Ask} (hT : TiedLists s n)
    (h : runCmd cfg s c = .ret s' e) : TiedLists s' (if e = .success then n.accepted c else n) := by
  by_cases hw : writesLists c = true
  · cases c
    all_goals first | (cases hw; done) | skip
    all_goals
      obtain ⟨rfl, rfl⟩ := runCmd_ret_of h
    case setRandomAddress a =>
      exact checked_note (fun _ => ⟨rfl, hT.2, hT.3, hT.4, hT.5⟩) hT
    case addResolving t a pk lk =>
      refine checked_note (fun hf => ?_) hT
      · skip
        rw [firstError_iff (by simp)] at hf
        have hk := hf (s.resolvingList.any (fun e => (e.peerType == t && e.peerAddress == a) || (e.peerIrk == pk && pk != 0)), .invalidHciCommandParameters) (by simp)
        refine ⟨hT.1, hT.2, ?_, ?_, hT.5⟩
        · show List.map asPeer (s.resolvingList ++ [_]) = n.peers ++ [_]
          rw [List.map_append, hT.3]; rfl
        · show (List.map RlEntry.key (s.resolvingList ++ [_])).Nodup
          rw [List.map_append, List.nodup_append]
          refine ⟨hT.4, by simp, ?_⟩
          intro x hx y hy
          obtain ⟨e', he', rfl⟩ := List.mem_map.1 hx
          simp only [List.map_cons, List.map_nil, List.mem_singleton] at hy
          subst hy
          intro hc
          simp only [List.any_eq_false] at hk
          refine hk e' he' ?_
          simp only [RlEntry.key, Prod.mk.injEq] at hc
          simp [hc.1, hc.2]
    case removeResolving t a =>
      refine checked_note (fun _ => ?_) hT
      · skip
        refine ⟨hT.1, hT.2, ?_, ?_, hT.5⟩
        · exact (filter_eraseP_peer t a _ hT.4).trans (by rw [hT.3]; rfl)
        · exact hT.4.sublist (List.Sublist.map _ List.eraseP_sublist)
    case clearResolving =>
      exact checked_note (fun _ => ⟨hT.1, hT.2, rfl, List.nodup_nil, hT.5⟩) hT
    case setAddressResolutionEnable b =>
      exact checked_note (fun _ => ⟨hT.1, hT.2, hT.3, hT.4, rfl⟩) hT
    case setPrivacyMode t a m =>
      refine checked_note (fun _ => ?_) hT
      · skip
        refine ⟨hT.1, hT.2, ?_, ?_, hT.5⟩
        · refine Eq.trans ?_ hT.3
          apply modifyFirst_map; intro a; rfl
        · have : (modifyFirst (fun e : RlEntry => e.peerType == t && e.peerAddress == a) (fun e => { e with privacyMode := m }) s.resolvingList).map RlEntry.key = s.resolvingList.map RlEntry.key := by
            apply modifyFirst_map; intro a; rfl
          show (List.map RlEntry.key (modifyFirst _ _ _)).Nodup
          rw [this]; exact hT.4
    case clearFilterAccept =>
      exact checked_note (fun _ => ⟨hT.1, fun _ _ => rfl, hT.3, hT.4, hT.5⟩) hT
    case addFilterAccept t a =>
      refine checked_note (fun _ => ?_) hT
      · skip
        refine ⟨hT.1, fun t' a' => ?_, hT.3, hT.4, hT.5⟩
        show List.countP _ (s.filterAcceptList ++ [_]) = n.accept t' a' + _
        rw [List.countP_append, hT.2, List.countP_cons]
        exact congrArg (n.accept t' a' + ·) (Nat.zero_add _)
    case removeFilterAccept t a =>
      refine checked_note (fun _ => ?_) hT
      · skip
        refine ⟨hT.1, fun t' a' => ?_, hT.3, hT.4, hT.5⟩
        show List.countP _ (List.eraseP _ _) = n.accept t' a' - _
        rw [countP_eraseP_fal, hT.2]
  · have hw : writesLists c = false := by simpa using hw
    have h1 : s'.randomAddress = s.randomAddress := runCmd_random (by rintro a rfl; cases hw) h
    have h2 : s'.filterAcceptList = s.filterAcceptList := runCmd_filterAccept (by cases c <;> first | rfl | cases hw) h
    have h3 := runCmd_content (by cases c <;> first | rfl | cases hw) h
    have h4 : s'.resolvingListEnabled = s.resolvingListEnabled := runCmd_resolve (by rintro a rfl; cases hw) h
    obtain ⟨g1, g2, g3, g4⟩ := accepted_lists n c hw
    split
    · exact hT.same h1 h2 h3 h4 g1 g2 g3 g4
    · exact hT.same h1 h2 h3 h4 rfl rfl rfl rfl


/-! ### Scanning -/

/-- The timers of a scan. -/
structure Timers (c : Scanner) (r : Scan) : Prop where
  single : r.period = 0 → c.periodicalTimeout = none ∧ c.timeout = if r.duration = 0 then none else some (r.since + r.duration)
  periods : r.period ≠ 0 → r.duration < r.period ∧ c.duration = r.duration ∧ c.period = r.period ∧
    c.periodicalTimeout = some (r.since + r.period) ∧ (c.timeout = some (r.since + r.duration) ∨ c.timeout = none)

/-- A scan that goes on. -/
structure ScanOn (s : State) (r : Scan) : Prop where
  enable : s.le.scanner.enable = true
  legacy : s.le.legacyInUse = !r.extended
  extended : s.le.extendedInUse = r.extended
  filter : s.le.scanner.filterDuplicates = r.filter
  timers : Timers s.le.scanner r
  heard : r.filter ≠ .disabled → s.history = r.heard
  awaits : ∀ a, (mapFind s.pending a).map (·.timeout) = r.awaits a
  keys : (s.pending.map (·.1)).Nodup

structure TiedScan (s : State) (n : Ask) : Prop where
  policy : s.le.scanner.filterPolicy = n.policy
  own : s.le.scanner.ownAddressType = n.own
  le1m : s.le.scanner.le1m.enabled = n.le1m.isSome
  kind : ∀ t, n.le1m = some t → s.le.scanner.le1m.scanType = t
  coded : s.le.scanner.leCoded.enabled = n.coded.isSome
  scan : match n.scan with | none => s.le.scanner.enable = false | some r => ScanOn s r

theorem flags_cmd {cfg : Config} {s s' : Le.State} {c : Cmd} {e : Status} {b : Bool} (h : runCmd cfg s c = .ret s' e)
    (h1 : s.legacyInUse = !b) (h2 : s.extendedInUse = b) : s'.legacyInUse = (!b) ∧ s'.extendedInUse = b := by
  obtain ⟨g1, g2, -, -, -, -, g7⟩ := runCmd_flags h
  cases b
  · have hl := g1 h1
    refine ⟨hl, ?_⟩
    cases hx : s'.extendedInUse
    · rfl
    · rw [(g7 hl hx).2] at h2; cases h2
  · have hl := g2 h2
    refine ⟨?_, hl⟩
    cases hx : s'.legacyInUse
    · rfl
    · rw [(g7 hx hl).1] at h1; cases h1

theorem TiedScan.keep {s t : State} {n m : Ask} (h : TiedScan s n) (h1 : t.le.scanner = s.le.scanner)
    (h2 : ∀ b, s.le.legacyInUse = !b → s.le.extendedInUse = b → t.le.legacyInUse = (!b) ∧ t.le.extendedInUse = b)
    (h3 : t.history = s.history) (h4 : t.pending = s.pending)
    (g1 : m.policy = n.policy) (g2 : m.own = n.own) (g3 : m.le1m = n.le1m) (g4 : m.coded = n.coded) (g5 : m.scan = n.scan) :
    TiedScan t m := by
  refine ⟨by rw [h1, g1]; exact h.1, by rw [h1, g2]; exact h.2, by rw [h1, g3]; exact h.3, by rw [h1, g3]; exact h.4, by rw [h1, g4]; exact h.5, ?_⟩
  rw [g5]
  have h6 := h.6
  cases hs : n.scan with
  | none => rw [hs] at h6; simp only at h6 ⊢; rw [h1]; exact h6
  | some r =>
    rw [hs] at h6
    simp only at h6 ⊢
    obtain ⟨k1, k2, k3, k4, k5, k6, k7, k8⟩ := h6
    exact ⟨by rw [h1]; exact k1, (h2 _ k2 k3).1, (h2 _ k2 k3).2, by rw [h1]; exact k4, by rw [h1]; exact k5,
      by rw [h3]; exact k6, by rw [h4]; exact k7, by rw [h4]; exact k8⟩

theorem command_cases {cfg : Config} {s : State} {c : Cmd} {x : State × Status} (h : command cfg s c = .ok x) :
    ∃ le, runCmd cfg s.le c = .ret le x.2 ∧
      x.1 = (if clearsScan c && x.2 == .success then { s with le := le, history := [], pending := [] } else { s with le := le }) := by
  simp only [command] at h
  split at h
  · cases h
  · rename_i le e hr
    by_cases hb : (clearsScan c && e == .success) = true
    · rw [if_pos hb] at h; cases h; exact ⟨le, hr, by rw [if_pos hb]⟩
    · rw [if_neg hb] at h; cases h; exact ⟨le, hr, by rw [if_neg hb]⟩

theorem bitCount_ge (mask : Nat) :
    (if mask.testBit 0 then 1 else 0) + (if mask.testBit 1 then 1 else 0) + (if mask.testBit 2 then 1 else 0) ≤ bitCount mask := by
  unfold bitCount
  rw [show List.range 8 = [0, 1, 2] ++ [3, 4, 5, 6, 7] from rfl, List.filter_append, List.length_append]
  cases h0 : mask.testBit 0 <;> cases h1 : mask.testBit 1 <;> cases h2 : mask.testBit 2 <;> simp [h0, h1, h2]

theorem getElem?_paramAt {α : Type} {l : List α} {i : Nat} (d : α) (h : i < l.length) : l[i]? = some (paramAt d l i) := by
  simp [paramAt, List.getD, h]

theorem getElem?_isSome_iff {α : Type} (l : List α) (i : Nat) : l[i]?.isSome = true ↔ i < l.length := by
  simp

theorem listedFor_le1m {α : Type} {mask : Nat} {params : List α} (d : α) (h : params.length = bitCount mask) :
    listedFor mask params .le1m = if mask.testBit 0 then some (paramAt d params 0) else none := by
  have hb := bitCount_ge mask
  show (if mask.testBit 0 then params[((List.range 0).filter (fun i => mask.testBit i)).length]? else none) = _
  by_cases h0 : mask.testBit 0 = true
  · rw [if_pos h0] at hb
    rw [if_pos h0, if_pos h0]
    exact getElem?_paramAt (i := 0) d (by rw [h]; omega)
  · rw [if_neg h0, if_neg h0]

theorem listedFor_coded {α : Type} {mask : Nat} {params : List α} (h : params.length = bitCount mask) :
    (listedFor mask params .leCoded).isSome = mask.testBit 2 := by
  have hb := bitCount_ge mask
  show (if mask.testBit 2 then params[((List.range 2).filter (fun i => mask.testBit i)).length]? else none).isSome = _
  by_cases h2 : mask.testBit 2 = true
  · rw [if_pos h2] at hb ⊢
    rw [h2, show List.range 2 = [0, 1] from rfl, getElem?_isSome_iff, h]
    cases h0 : mask.testBit 0 <;> cases h1 : mask.testBit 1 <;> simp [h0, h1] at hb ⊢ <;> omega
  · rw [if_neg h2]
    simpa using h2

theorem listedFor_coded_no2m {α : Type} {mask : Nat} {params : List α} (d : α) (h : params.length = bitCount mask) (h1 : mask.testBit 1 = false) :
    listedFor mask params .leCoded = if mask.testBit 2 then some (paramAt d params (if mask.testBit 0 then 1 else 0)) else none := by
  have hb := bitCount_ge mask
  show (if mask.testBit 2 then params[((List.range 2).filter (fun i => mask.testBit i)).length]? else none) = _
  by_cases h2 : mask.testBit 2 = true
  · rw [if_pos h2, h1] at hb
    rw [if_pos h2, if_pos h2, show List.range 2 = [0, 1] from rfl]
    cases h0 : mask.testBit 0 <;> simp only [h0, h1, List.filter_cons, List.filter_nil, if_true, Bool.false_eq_true, if_false, List.length_cons, List.length_nil] at hb ⊢
    · exact getElem?_paramAt (i := 0) d (by rw [h]; omega)
    · exact getElem?_paramAt (i := 1) d (by rw [h]; omega)
  · rw [if_neg h2, if_neg h2]

theorem checked_cases' {checks : List (Bool × Status)} {s u : Le.State} {y : Le.State × Status} (h : checked checks s u = y) :
    (firstError checks = .success ∧ y = (u, .success)) ∨ (firstError checks ≠ .success ∧ y = (s, firstError checks)) := by
  rw [← h]; exact checked_cases checks s u

theorem scan_cmd {cfg : Config} {s : State} {c : Cmd} {x : State × Status} {n : Ask} (hT : TiedScan s n)
    (h : command cfg s c = .ok x) : TiedScan x.1 (if x.2 = .success then n.accepted c else n) := by
  obtain ⟨le, hr, hx⟩ := command_cases h
  have hfl : ∀ b, s.le.legacyInUse = !b → s.le.extendedInUse = b → le.legacyInUse = (!b) ∧ le.extendedInUse = b :=
    fun b h1 h2 => flags_cmd hr h1 h2
  by_cases hw : writesScanner c = true
  · cases c
    all_goals first | (cases hw; done) | skip
    case setScanParameters t i w own policy =>
      rw [if_neg (by exact nofun)] at hx
      obtain ⟨hle, he⟩ := runCmd_ret_of hr
      by_cases hok : x.2 = .success
      · rw [if_pos hok, hx]
        rw [he] at hok
        simp only [setScanParameters, withLegacy] at hle hok
        by_cases hxx : s.le.extendedInUse = true
        · rw [if_pos hxx] at hok; cases hok
        rw [if_neg hxx] at hle hok
        simp only [checked, checkedThen] at hle hok
        split at hle
        · rename_i hf
          subst hle
          rw [firstError_cons (by simp)] at hf
          have h6 := hT.6
          refine ⟨rfl, rfl, rfl, fun t ht => by cases ht; rfl, rfl, ?_⟩
          show (match n.scan with | none => _ | some r => _)
          cases hs : n.scan with
          | none => exact hf.1
          | some r => rw [hs] at h6; exact absurd (h6.1.symm.trans hf.1) nofun
        · rename_i hf; rw [if_neg hf] at hok; exact absurd hok hf
      · rw [if_neg hok, hx]
        have hs : le.scanner = s.le.scanner := by
          rw [he] at hok
          rw [hle]
          revert hok
          simp only [setScanParameters, withLegacy, checked, checkedThen]
          repeat' split
          all_goals first | (intro _; rfl) | (intro hok; exact absurd rfl hok)
        exact hT.keep hs hfl rfl rfl rfl rfl rfl rfl rfl
    case setExtendedScanParameters own policy phys params =>
      rw [if_neg (by exact nofun)] at hx
      have hst : Le.step cfg s.le (.cmd (.setExtendedScanParameters own policy phys params)) = .ok le (some x.2) [] := by
        simp only [Le.step, hr]
      rcases extScan_cases (cfg := cfg) (s := s.le) (own := own) (policy := policy) (phys := phys) (params := params) with
        ⟨s', hs', h1, h2, -, -, h5, -, h7, h8, h9, h10⟩ | ⟨s', e, hs', he, ⟨y, hy⟩, -⟩
      · rw [hst] at hs'
        injection hs' with e1 e2
        subst e1
        injection e2 with e2
        rw [if_pos e2, hx]
        have h6 := hT.6
        refine ⟨h8, h7, ?_, ?_, ?_, ?_⟩
        · show le.scanner.le1m.enabled = ((listedFor _ _ _).map _).isSome
          rw [h9, listedFor_le1m ⟨.passive, 0, 0⟩ h5]
          split <;> rfl
        · intro t ht
          have ht : (listedFor phys.toNat params .le1m).map (·.scanType) = some t := ht
          rw [listedFor_le1m ⟨.passive, 0, 0⟩ h5] at ht
          show le.scanner.le1m.scanType = t
          rw [h9]
          split at ht
          · rename_i hb; rw [if_pos hb]; cases ht; rfl
          · cases ht
        · show le.scanner.leCoded.enabled = ((listedFor _ _ _).map _).isSome
          rw [h10, Option.isSome_map, listedFor_coded h5]
          split
          · rename_i hb; exact hb.symm
          · rename_i hb; simpa using hb
        · show (match n.scan with | none => _ | some r => _)
          cases hs : n.scan with
          | none =>
            show le.scanner.enable = false
            rw [hs] at h6
            obtain ⟨hle, -⟩ := runCmd_ret_of hr
            rw [hle]
            simp only [setExtendedScanParameters, withExtended, checked, checkedThen]
            repeat' split
            all_goals exact h6
          | some r => rw [hs] at h6; exact absurd (h6.1.symm.trans h2) nofun
      · rw [hst] at hs'
        injection hs' with e1 e2
        injection e2 with e2
        rw [e2, if_neg he, hx]
        exact hT.keep (by show le.scanner = _; rw [e1, hy]) hfl rfl rfl rfl rfl rfl rfl rfl
    case setScanEnable b f =>
      obtain ⟨hle, he⟩ := runCmd_ret_of hr
      simp only [setScanEnable, withLegacy] at hle he
      by_cases hxx : s.le.extendedInUse = true
      · rw [if_pos hxx] at hle he
        rw [he, if_neg (by exact nofun)] at hx
        rw [he, if_neg (by exact nofun), hx]
        exact hT.keep (by rw [hle]) hfl rfl rfl rfl rfl rfl rfl rfl
      rw [if_neg hxx] at hle he
      cases b with
      | false =>
        rw [if_pos rfl] at hle he
        have he : x.2 = .success := he
        have hx := hx.trans (if_pos (by rw [he]; rfl))
        rw [he, if_pos rfl, hx, hle]
        exact ⟨hT.1, hT.2, hT.3, hT.4, hT.5, rfl⟩
      | true =>
        rw [if_neg (by exact nofun)] at hle he
        simp only [checked, checkedThen] at hle he
        split at hle
        · rename_i hf
          rw [if_pos hf] at he
          have he : x.2 = .success := he
          have hx := hx.trans (if_pos (by rw [he]; rfl))
          rw [he, if_pos rfl, hx, hle]
          refine ⟨hT.1, hT.2, hT.3, hT.4, hT.5, ?_⟩
          exact ⟨rfl, rfl, by simpa using hxx, rfl, ⟨fun _ => ⟨rfl, rfl⟩, fun hp => absurd rfl hp⟩, fun _ => rfl, fun _ => rfl, List.nodup_nil⟩
        · rename_i hf
          rw [if_neg hf] at he
          rw [he, if_neg (by rw [Bool.and_eq_true, beq_iff_eq]; exact fun h => hf h.2)] at hx
          rw [he, if_neg hf, hx]
          exact hT.keep (by rw [hle]) hfl rfl rfl rfl rfl rfl rfl rfl
    case setExtendedScanEnable now b fd d p =>
      obtain ⟨hle, he⟩ := runCmd_ret_of hr
      simp only [setExtendedScanEnable, withExtended] at hle he
      by_cases hxx : s.le.legacyInUse = true
      · rw [if_pos hxx] at hle he
        rw [he, if_neg (by exact nofun)] at hx
        rw [he, if_neg (by exact nofun), hx]
        exact hT.keep (by rw [hle]) hfl rfl rfl rfl rfl rfl rfl rfl
      rw [if_neg hxx] at hle he
      cases b with
      | false =>
        rw [if_pos rfl] at hle he
        have he : x.2 = .success := he
        have hx := hx.trans (if_pos (by rw [he]; rfl))
        rw [he, if_pos rfl, hx, hle]
        exact ⟨hT.1, hT.2, hT.3, hT.4, hT.5, rfl⟩
      | true =>
        rw [if_neg (by exact nofun)] at hle he
        obtain ⟨q, hq⟩ : ∃ q, q = if d = 0 then 0 else p := ⟨_, rfl⟩
        rw [← hq] at hle he
        generalize hch : checked _ _ _ = y at hle he
        rcases checked_cases' hch with ⟨hf, hy⟩ | ⟨hf, hy⟩
        · rw [hy] at he hle
          have he : x.2 = .success := he
          have hx := hx.trans (if_pos (by rw [he]; rfl))
          rw [he, if_pos rfl, hx, hle]
          refine ⟨hT.1, hT.2, hT.3, hT.4, hT.5, ?_⟩
          refine ⟨rfl, by simpa using hxx, rfl, rfl, ?_, fun _ => rfl, fun _ => rfl, List.nodup_nil⟩
          rw [firstError_cons (by simp), firstError_cons (by simp)] at hf
          have hf := hf.2.1
          by_cases hd : d = 0
          · rw [if_pos hd] at hq
            subst hq hd
            exact ⟨fun _ => ⟨rfl, rfl⟩, fun hp => absurd rfl hp⟩
          · rw [if_neg hd] at hq
            subst hq
            simp only [hd, if_false]
            by_cases hp : q = 0
            · subst hp
              refine ⟨fun _ => ⟨rfl, ?_⟩, fun h => absurd rfl h⟩
              have : 10000 * d ≠ 0 := by omega
              exact (if_neg this).symm
            · refine ⟨fun h => absurd h (by show 1280000 * q ≠ 0; omega), fun _ => ?_⟩
              have hlt : 10 * d < 1280 * q := by
                simp only [Bool.and_eq_false_iff, bne_eq_false_iff_eq, decide_eq_false_iff_not] at hf
                rcases hf with (h | h) | h
                · exact absurd h hp
                · exact absurd h hd
                · omega
              refine ⟨?_, rfl, rfl, if_neg hp, .inl rfl⟩
              show 10000 * d < 1280000 * q
              omega
        · rw [hy] at he hle
          rw [he, if_neg (by rw [Bool.and_eq_true, beq_iff_eq]; exact fun h => hf h.2)] at hx
          rw [he, if_neg hf, hx]
          exact hT.keep (by rw [hle]) hfl rfl rfl rfl rfl rfl rfl rfl
  · have hw : writesScanner c = false := by simpa using hw
    have hcl : clearsScan c = false := by cases c <;> first | rfl | cases hw
    rw [hcl, Bool.false_and, if_neg (by exact nofun)] at hx
    rw [hx]
    have hs := runCmd_scanner hw hr
    obtain ⟨g1, g2, g3, g4, g5⟩ := accepted_scan n c hw
    split
    · exact hT.keep hs hfl rfl rfl g1 g2 g3 g4 g5
    · exact hT.keep hs hfl rfl rfl rfl rfl rfl rfl rfl

/-! ### Initiating -/

/-- A connection that is being created. -/
structure CallOn (s : Le.State) (c : Call) : Prop where
  enable : s.initiator.enable = true
  legacy : s.legacyInUse = !c.extended
  extended : s.extendedInUse = c.extended
  policy : s.initiator.filterPolicy = c.policy
  peer : s.initiator.peerAddress = c.peer
  own : s.initiator.ownAddressType = c.own
  params : ∀ p, c.params = some p → s.initiator.le1m.params = p
  asked : s.initiator.pendingConnectRequest.isSome = c.asked

def TiedCall (s : Le.State) (n : Ask) : Prop :=
  match n.call with
  | none => s.initiator.enable = false
  | some c => CallOn s c

theorem TiedCall.keep {s t : Le.State} {n m : Ask} (h : TiedCall s n) (h1 : SameCall s.initiator t.initiator)
    (h2 : ∀ b, s.legacyInUse = !b → s.extendedInUse = b → t.legacyInUse = (!b) ∧ t.extendedInUse = b)
    (g : m.call = n.call) : TiedCall t m := by
  unfold TiedCall at h ⊢
  rw [g]
  cases hs : n.call with
  | none => rw [hs] at h; exact h1.1.trans h
  | some c =>
    rw [hs] at h
    obtain ⟨k1, k2, k3, k4, k5, k6, k7, k8⟩ := h
    exact ⟨h1.1.trans k1, (h2 _ k2 k3).1, (h2 _ k2 k3).2, h1.2.trans k4, h1.3.trans k5, h1.4.trans k6,
      by rw [h1.5]; exact k7, by rw [h1.6]; exact k8⟩

theorem call_cmd {cfg : Config} {s s' : Le.State} {c : Cmd} {e : Status} {n : Ask} (hT : TiedCall s n)
    (h : runCmd cfg s c = .ret s' e) : TiedCall s' (if e = .success then n.accepted c else n) := by
  have hfl : ∀ b, s.legacyInUse = !b → s.extendedInUse = b → s'.legacyInUse = (!b) ∧ s'.extendedInUse = b :=
    fun b h1 h2 => flags_cmd h h1 h2
  by_cases hw : writesCall c = true
  · cases c
    all_goals first | (cases hw; done) | skip
    case createConnectionCancel =>
      obtain ⟨rfl, rfl⟩ := runCmd_ret_of h
      exact checked_note (P := TiedCall) (fun _ => rfl) hT
    case createConnection rnd policy peer own p =>
      by_cases he : e = .success
      · rw [if_pos he]
        obtain ⟨hle, hst⟩ := runCmd_ret_of h
        rw [he] at hst
        simp only [createConnection, withLegacy, checkedThen] at hle hst
        by_cases hx : s.extendedInUse = true
        · rw [if_pos hx] at hst; cases hst
        rw [if_neg hx] at hle hst
        split at hle
        · rename_i hf
          rw [if_pos hf] at hst
          obtain ⟨r, hr⟩ := initiatorAddressCheck_fst rnd { s with legacyInUse := true } policy peer own
          rw [hr] at hle hst
          split at hle
          · rename_i ha; rw [if_pos ha] at hst; cases hst
          · rw [hle]
            exact ⟨rfl, rfl, by simpa using hx, rfl, rfl, rfl, fun q hq => by cases hq; rfl, rfl⟩
        · rename_i hf; rw [if_neg hf] at hst; exact absurd hst.symm hf
      · rw [if_neg he]
        rw [show n = n from rfl]
        have hi := runCmd_initiator_fail (by rfl) h he
        exact hT.keep (by rw [hi]; exact .refl _) hfl rfl
    case extendedCreateConnection rnd policy own peer phys params =>
      by_cases he : e = .success
      · rw [if_pos he]
        obtain ⟨hle, hst⟩ := runCmd_ret_of h
        have hsc : Le.step cfg s (.cmd (.extendedCreateConnection rnd policy own peer phys params)) = .ok s' (some .success) [] := by
          simp only [Le.step, h, he]
        obtain ⟨g1, -, -, -, -, -, -, g8, g9⟩ := extendedCreateConnection_success hsc
        have g9 := g9 .le1m
        rw [he] at hst
        simp only [extendedCreateConnection, withExtended, checkedThen] at hle hst
        by_cases hx : s.legacyInUse = true
        · rw [if_pos hx] at hst; cases hst
        rw [if_neg hx] at hle hst
        split at hle
        · rename_i hf
          rw [if_pos hf] at hst
          obtain ⟨r, hr⟩ := initiatorAddressCheck_fst rnd { s with extendedInUse := true } policy peer own
          rw [hr] at hle hst
          split at hle
          · rename_i ha; rw [if_pos ha] at hst; cases hst
          · have hpar : ∀ q, listedFor phys.toNat params .le1m = some q → s'.initiator.le1m.params = q := by
              intro q hq
              split at g9
              · obtain ⟨p', h1, h2⟩ := g9
                rw [h1] at hq; cases hq
                have h2 : s'.initiator.le1m = _ := h2
                rw [h2]
              · rename_i hb
                rw [listedFor, if_neg hb] at hq; cases hq
            refine ⟨g8, ?_, ?_, ?_, ?_, ?_, hpar, ?_⟩
            all_goals rw [hle]
            all_goals first | rfl | (simpa using hx)
        · rename_i hf; rw [if_neg hf] at hst; exact absurd hst.symm hf
      · rw [if_neg he]
        have hi := runCmd_initiator_fail (by rfl) h he
        exact hT.keep (by rw [hi]; exact .refl _) hfl rfl
  · have hw : writesCall c = false := by simpa using hw
    have hi := runCmd_initiator hw h
    have hk : SameCall s.initiator s'.initiator := by rw [hi]; exact .refl _
    split
    · exact hT.keep hk hfl (accepted_call n c hw)
    · exact hT.keep hk hfl rfl

/-! ### All operations -/

structure Tied (s : State) (n : Ask) : Prop where
  lists : TiedLists s.le n
  scan : TiedScan s n
  call : TiedCall s.le n

theorem Tied.plain {s t : State} {n m : Ask} (h : Tied s n) (hp : Plain s t)
    (g1 : m.random = n.random) (g2 : m.accept = n.accept) (g3 : m.peers = n.peers) (g4 : m.resolve = n.resolve)
    (g5 : m.policy = n.policy) (g6 : m.own = n.own) (g7 : m.le1m = n.le1m) (g8 : m.coded = n.coded) (g9 : m.scan = n.scan)
    (g10 : m.call = n.call) : Tied t m := by
  obtain ⟨h1, h2, h3, h4⟩ := hp
  have hfl : ∀ b, s.le.legacyInUse = !b → s.le.extendedInUse = b → t.le.legacyInUse = (!b) ∧ t.le.extendedInUse = b :=
    fun b k1 k2 => ⟨h1.6.trans k1, h1.7.trans k2⟩
  exact ⟨h.1.same h1.1 h1.2 h1.3 h1.4 g1 g2 g3 g4, h.2.keep h1.5 hfl h3 h4 g5 g6 g7 g8 g9, h.3.keep h2 hfl g10⟩

theorem Scan.received_silent {now : Nat} {p : Packet} {out : List Out} (hp : ∀ a b c, p ≠ .scanResponse a b c) (h1 : told out = false) (h2 : scanRequestsOf out = []) (r : Scan) :
    Scan.received now p out r = r := by
  obtain ⟨a, b, c, d, e, f, g⟩ := r
  simp only [Scan.received, h1, h2]
  cases p with
  | scanResponse x y z => exact absurd rfl (hp x y z)
  | _ => rfl

theorem Call.received_silent {out : List Out} (h1 : calledBack out = false) (h2 : requestsOf out = []) (c : Call) :
    Call.received out c = some c := by
  obtain ⟨a, b, d, e, f, g⟩ := c
  simp only [Call.received, h1, h2, Bool.false_eq_true, if_false]
  cases g <;> rfl

theorem tied_plain_receive {s t : State} {n : Ask} (h : Tied s n) (hp : Plain s t) {now : Nat} {p : Packet} {out : List Out}
    (hs : Silent out) (hne : ∀ a b c, p ≠ .scanResponse a b c) :
    Tied t { n with scan := n.scan.map (Scan.received now p out), call := n.call.bind (Call.received out) } := by
  refine h.plain hp rfl rfl rfl rfl rfl rfl rfl rfl ?_ ?_
  · cases hn : n.scan with
    | none => simp only [hn]; rfl
    | some r => simp only [hn, Option.map_some, Scan.received_silent hne hs.1 hs.2]
  · cases hn : n.call with
    | none => simp only [hn]; rfl
    | some c => simp only [hn, Option.bind_some, Call.received_silent hs.4 hs.3]

end Verif.Ll
