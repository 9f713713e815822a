import Verif.Br.WishLemmas
import Verif.Br.PropsFail
/-! # C108: a device shows itself as its host wished -/
namespace Verif.Br
open Verif.Conn (Table keys)

/-- In every history, an inquiry is answered exactly if the host enabled the
inquiry scan for its access code and did not disable it or reset the controller since; the answer has the class of device and the
extended inquiry response the host wrote last. The host gets no event. -/
theorem C108_inquiry (addr : Nat) (i : Info) (n : Nat) (as : List (Nat × Act)) (hx : ∀ x ∈ as, Named x.2)
    (s : Ctl) (l : List Seen) (h : run (Ctl.fresh addr i n) as = some (s, l)) (now src dst rssi format lap : Nat) (hd : dst = 0 ∨ dst = addr) :
    ∃ s', step s now (.packet src dst rssi (.inquiry format lap)) = .ok 0 s' ((wishes n i l).foundAs src format lap rssi) [] := by
  obtain ⟨ht, _, ha⟩ := tied_run as (fresh_inv addr i n) (tied_fresh false addr i n) hx nofun h
  refine ⟨touch s now src, ?_⟩
  have he := touch_eq s now src
  have ha' : s.addr = addr := ha
  have h1 : (touch s now src).inqScan = (wishes n i l).inquiryScan := by rw [he]; exact ht.inquiryScan
  have h2 : (touch s now src).iac = (wishes n i l).codes := by rw [he]; exact ht.codes
  have h3 : (touch s now src).info = (wishes n i l).self := by rw [he]; exact ht.self
  simp only [step, incoming]
  rw [if_neg (by rw [ha']; omega)]
  simp only [dispatch, onInquiry, h1, h2, h3, Wish.foundAs]
  cases (wishes n i l).inquiryScan with
  | false => rfl
  | true =>
    by_cases hc : lap ∈ (wishes n i l).codes
    · have hb : (true && (wishes n i l).codes.contains lap) = true := by simpa using hc
      rw [hb]
      simp only [Bool.true_eq_false, if_false, not_true_eq_false, if_true, hc]
      match format with
      | 0 => rfl
      | 1 => rfl
      | 2 => rfl
      | _ + 3 => rfl
    · have hb : (true && (wishes n i l).codes.contains lap) = false := by simpa using hc
      rw [hb]
      simp [hc]

/-- A device that was made discoverable, and the same after a reset. -/
example : (run exampleA [(0, .cmd .reset), (0, .cmd (.writeScanEnable true false)), (1, .cmd (.setInfo { exampleInfo with cod := 0x123456 }))]).map
      (fun r => (step r.1 2 (.packet 0xB 0 7 (.inquiry 1 0x33)) = .ok 0 r.1 [(0xB, .inqRsp 1 0x123456 7 [])] [] : Bool)) = some true ∧
    (run exampleA [(0, .cmd (.writeScanEnable true false)), (1, .cmd .reset)]).map
      (fun r => (step r.1 2 (.packet 0xB 0 7 (.inquiry 1 0x33)) = .ok 0 r.1 [] [] : Bool)) = some true := by decide +kernel

/-- **C108, false in part.** A host that does not begin with Reset and makes its device discoverable is not found with the general
inquiry access code, which a device has by default: there is no access code until Reset. -/
theorem C108_new_violated (addr : Nat) (i : Info) (n src rssi format lap : Nat) :
    ∃ s, run (Ctl.fresh addr i n) [(0, .cmd (.writeScanEnable true true))] = some (s, [⟨0, .cmd (.writeScanEnable true true), 0, [], []⟩]) ∧
      ∃ s', step s 1 (.packet src 0 rssi (.inquiry format lap)) = .ok 0 s' [] [] :=
  ⟨_, rfl, C108_inquiry addr i n [(0, .cmd (.writeScanEnable true true))] (fun x hx => by cases List.mem_singleton.1 hx; trivial) _ _ rfl
    1 src 0 rssi format lap (.inl rfl)⟩

/-- Before any command a device is not found, whatever the access code. -/
theorem C108_hidden (addr : Nat) (i : Info) (n now src dst rssi format lap : Nat) (hd : dst = 0 ∨ dst = addr) :
    ∃ s', step (Ctl.fresh addr i n) now (.packet src dst rssi (.inquiry format lap)) = .ok 0 s' [] [] :=
  C108_inquiry addr i n [] nofun _ _ rfl now src dst rssi format lap hd

/-- A page is noticed only if the host enabled the page scan and did not disable it or reset the controller since: otherwise nothing
is sent and the host is told nothing. If it did, the host is told of the first one who pages, unless it masks the event. -/
theorem C108_page (addr : Nat) (i : Info) (n : Nat) (as : List (Nat × Act)) (hx : ∀ x ∈ as, Named x.2)
    (s : Ctl) (l : List Seen) (h : run (Ctl.fresh addr i n) as = some (s, l)) (now src dst rssi cod : Nat) (allow : Bool) (hd : dst = 0 ∨ dst = addr) :
    ((wishes n i l).pageScan = false → ∃ s', step s now (.packet src dst rssi (.page cod allow)) = .ok 0 s' [] [] ∧ s'.scan = s.scan) ∧
    ((wishes n i l).pageScan = true → s.mask.testBit 3 = true → src ∉ peers s → s.scan = none →
      ∃ s', step s now (.packet src dst rssi (.page cod allow)) = .ok 0 s' [] [.connRequest src cod .acl]) := by
  obtain ⟨ht, _, ha⟩ := tied_run as (fresh_inv addr i n) (tied_fresh false addr i n) hx nofun h
  have ha' : s.addr = addr := ha
  have he := touch_eq s now src
  have h1 : (touch s now src).pageScan = (wishes n i l).pageScan := by rw [he]; exact ht.pageScan
  simp only [step, incoming]
  rw [if_neg (by rw [ha']; omega)]
  simp only [dispatch, onPage, h1]
  refine ⟨fun hp => ⟨touch s now src, ?_, by rw [he]⟩, fun hp hm hn hs => ?_⟩
  · rw [if_pos hp]
  · have h2 : touch s now src = s := by
      unfold touch
      rw [aclOf_none.2 hn]
    have h3 : unmasked s 4 = true := hm
    rw [if_neg (by simp [hp]), h2, h3, aclOf_none.2 hn, hs]
    exact ⟨_, rfl⟩

example : (run exampleA [(0, .cmd (.writeScanEnable false true))]).map (fun r => (step r.1 2 (.packet 0xB 0xA 7 (.page 0x200404 true)) =
    .ok 0 { r.1 with scan := some ⟨0xB, true⟩ } [] [.connRequest 0xB 0x200404 .acl] : Bool)) = some true := by decide +kernel

/-- Whoever asks gets the name, the host features, the features and the version the host wrote last or the device came with. -/
theorem C108_self (addr : Nat) (i : Info) (n : Nat) (as : List (Nat × Act)) (hx : ∀ x ∈ as, Named x.2)
    (s : Ctl) (l : List Seen) (h : run (Ctl.fresh addr i n) as = some (s, l)) (now src dst rssi : Nat) (hd : dst = 0 ∨ dst = addr) :
    ∃ s', step s now (.packet src dst rssi .nameReq) = .ok 0 s' [(src, .nameRsp (wishes n i l).self.name)] [] ∧
      step s now (.packet src dst rssi .hostFeaturesReq) = .ok 0 s' [(src, .hostFeaturesRsp (wishes n i l).self.hostFeatures)] [] ∧
      step s now (.packet src dst rssi .featuresReq) = .ok 0 s' [(src, .featuresRsp (wishes n i l).self.features0)] [] := by
  obtain ⟨ht, _, ha⟩ := tied_run as (fresh_inv addr i n) (tied_fresh false addr i n) hx nofun h
  have ha' : s.addr = addr := ha
  have he := touch_eq s now src
  have h1 : (touch s now src).info = (wishes n i l).self := by rw [he]; exact ht.self
  refine ⟨touch s now src, ?_⟩
  simp only [step, incoming]
  rw [if_neg (by rw [ha']; omega), if_neg (by rw [ha']; omega), if_neg (by rw [ha']; omega)]
  simp only [dispatch, h1, and_self]

/-- The answer to a request to switch the roles, for every connection the host was told of: it is accepted exactly if the host
allows role switches, by the link policy it last wrote for the connection or, if it wrote none, by the default link policy
at the time the connection was made. A refusal has the code 0x21 (role change not allowed). -/
theorem C108_role (addr : Nat) (i : Info) (n : Nat) (as : List (Nat × Act)) (hx : ∀ x ∈ as, Named x.2) (hh : ∀ x ∈ as, hears x.2 = true)
    (s : Ctl) (l : List Seen) (h : run (Ctl.fresh addr i n) as = some (s, l)) (now src dst rssi k : Nat) (c : Acl) (hd : dst = 0 ∨ dst = addr)
    (hc : s.acl.find? (fun e => e.2.addr = src) = some (k, c)) :
    ∃ p s' ev, (wishes n i l).policyOf k = some p ∧
      step s now (.packet src dst rssi .roleReq) = .ok 0 s' [(src, .roleRsp (if p.testBit 0 then 0 else 0x21))] ev ∧
      roleWith s' src = some (if p.testBit 0 then c.role.other else c.role) := by
  obtain ⟨ht, hi, ha⟩ := tied_run as (fresh_inv addr i n) (tied_fresh true addr i n) hx (fun _ => hh) h
  have ha' : s.addr = addr := ha
  have hc' : aclOf s src = some (k, c) := (aclOf_find? _ _).trans hc
  obtain ⟨m1, m2⟩ := aclOf_some hc'
  have hto : touch s now src = { s with acl := update s.acl k { c with last := now } } := by unfold touch; rw [hc']
  have hf : (update s.acl k { c with last := now }).find? (fun e => e.2.addr = src) = some (k, { c with last := now }) := by
    rw [find?_update (c := { c with last := now }) hi.sound.nodup m1 (fun d => d.addr = src) rfl, hc]
    simp
  have h1 : aclOf (touch s now src) src = some (k, { c with last := now }) := by
    rw [aclOf_find?, hto]
    exact hf
  have hin : Inv (touch s now src) := (touch_inv hi now src).1
  simp only [step, incoming]
  rw [if_neg (by rw [ha']; omega)]
  simp only [dispatch, onRoleReq, h1]
  refine ⟨c.policy, ?_⟩
  cases hp : c.policy.testBit 0 with
  | false =>
    refine ⟨touch s now src, [], ht.policies rfl k c m1, rfl, ?_⟩
    unfold roleWith
    rw [hto, hf]
    rfl
  | true =>
    refine ⟨_, _, ht.policies rfl k c m1, rfl, ?_⟩
    unfold roleWith
    have m3 := (aclOf_some h1).1
    have hf2 := (aclOf_find? (touch s now src) src).symm.trans h1
    simp only
    rw [find?_update (c := ⟨c.addr, c.role.other, c.policy, now⟩) hin.sound.nodup m3 (fun d => d.addr = src) rfl, hf2]
    simp

/-- Refused by default; accepted after Write Link Policy Settings, and on connections made after the default was changed. -/
example : (run exampleA connectB).map (fun r => (wishes 4 exampleInfo r.2).policyOf 0) = some (some 0) ∧
    (run exampleA (connectB ++ [(2000000000, .cmd (.writePolicy 0 5)), (2000000001, .packet 0xB 0xA 0 .roleReq)])).map
      (fun r => (r.2.flatMap Seen.out).contains (0xB, .roleRsp 0)) = some true ∧
    (run exampleA ((0, .cmd (.writeDefaultPolicy 1)) :: connectB ++ [(2000000001, .packet 0xB 0xA 0 .roleReq)])).map
      (fun r => (r.2.flatMap Seen.out).contains (0xB, .roleRsp 0)) = some true ∧
    (run exampleA (connectB ++ [(2000000000, .cmd (.writeDefaultPolicy 1)), (2000000001, .packet 0xB 0xA 0 .roleReq)])).map
      (fun r => (r.2.flatMap Seen.out).contains (0xB, .roleRsp 0x21)) = some true := by decide +kernel

end Verif.Br
