import Verif.Link.NetLemmas
/-!
# What a step about a connection does, case by case -/
namespace Verif.Link

/-- The result of a step about connection `h`. -/
inductive Eff (d : Dev) (h : Nat) (c : Conn) : Move → Out → Prop
  | phyBad (a b : Bool) (tx rx st : Nat) (hst : st ≠ 0) : Eff d h c (.cmd (.setPhy h a b tx rx)) ⟨st, d, [], []⟩
  | phySet (a b : Bool) (tx rx : Nat) : Eff d h c (.cmd (.setPhy h a b tx rx))
      ⟨0, { put d h { c with initiated := true } with reqTx := wanted d a tx, reqRx := wanted d b rx },
        [(h, .phyReq (wanted d a tx) (wanted d b rx))], []⟩
  | enable (r : List UInt8) (e : Nat) (k : Key) : Eff d h c (.cmd (.enable h r e k))
      ⟨0, { d with tasks := d.tasks ++ [⟨h, r, e, k⟩] }, [], []⟩
  | task (r : List UInt8) (e : Nat) (k : Key) (l : List Enable) (ht : d.tasks = ⟨h, r, e, k⟩ :: l) : Eff d h c .task
      ⟨0, { put d h { c with ltk := some k } with tasks := l }, [(h, .enc r e k)], []⟩
  | refresh (k : Key) (he : c.encrypted = true) : Eff d h c (.cmd (.reply h k))
      ⟨0, d, [(h, .encRsp 0 k)], tell (unmasked d 0x30) (.keyRefresh 0 h)⟩
  | reply (k : Key) (he : c.encrypted = false) : Eff d h c (.cmd (.reply h k))
      ⟨0, put d h { c with encrypted := true }, [(h, .encRsp 0 k)],
        if unmasked d 0x59 then [.encChangeV2 0 h true] else tell (unmasked d 0x08) (.encChange 0 h true)⟩
  | negative : Eff d h c (.cmd (.negative h)) ⟨0, d, [(h, .encRsp 6 (List.replicate 16 0))], []⟩
  | readFeatures : Eff d h c (.cmd (.readFeatures h)) ⟨0, d, [(h, .featReq)], []⟩
  | readVersion : Eff d h c (.cmd (.readVersion h)) ⟨0, d, [(h, .verReq)], []⟩
  | sendAcl (pb bc : Nat) (x : List UInt8) (hb : bc = 0) : Eff d h c (.cmd (.acl h pb bc x))
      ⟨0, d, [(h, .acl pb bc x)], [.completed h 1]⟩
  | phyReqP (tx rx : Nat) (hr : c.role = .peripheral) : Eff d h c (.rcv h (.phyReq tx rx))
      ⟨0, d, [(h, .phyRsp d.defTx d.defRx)], []⟩
  | phyReqC (tx rx : Nat) (hr : c.role = .central) : Eff d h c (.rcv h (.phyReq tx rx))
      ⟨0, put d h { c with tx := select (rx &&& d.defTx) c.tx, rx := select (tx &&& d.defRx) c.rx },
      [(h, .phyInd (indicate (select (rx &&& d.defTx) c.tx) c.tx) (indicate (select (tx &&& d.defRx) c.rx) c.rx))],
      tell ((select (rx &&& d.defTx) c.tx ≠ c.tx || select (tx &&& d.defRx) c.rx ≠ c.rx) && leUnmasked d 0x0c)
        (.phyDone h (select (rx &&& d.defTx) c.tx) (select (tx &&& d.defRx) c.rx))⟩
  | phyRsp (tx rx : Nat) (hr : c.role = .central) : Eff d h c (.rcv h (.phyRsp tx rx))
      ⟨0, put d h { c with tx := select (rx &&& d.reqTx) c.tx, rx := select (tx &&& d.reqRx) c.rx, initiated := false },
      [(h, .phyInd (indicate (select (rx &&& d.reqTx) c.tx) c.tx) (indicate (select (tx &&& d.reqRx) c.rx) c.rx))],
      tell (leUnmasked d 0x0c) (.phyDone h (select (rx &&& d.reqTx) c.tx) (select (tx &&& d.reqRx) c.rx))⟩
  | phyInd (a b : Nat) (hr : c.role = .peripheral) : Eff d h c (.rcv h (.phyInd a b))
      ⟨0, put d h { c with tx := select b c.tx, rx := select a c.rx, initiated := false }, [],
      tell (leUnmasked d 0x0c && (select b c.tx ≠ c.tx || select a c.rx ≠ c.rx || c.initiated))
        (.phyDone h (select b c.tx) (select a c.rx))⟩
  | enc (r : List UInt8) (e : Nat) (k : Key) : Eff d h c (.rcv h (.enc r e k))
      ⟨0, put d h { c with ltk := some k }, [], tell (unmasked d 0x3e) (.ltkRequest h r e)⟩
  | rspOn (st : Nat) (k : Key) (he : c.encrypted = true) : Eff d h c (.rcv h (.encRsp st k))
      ⟨0, d, [], tell (unmasked d 0x30) (.keyRefresh (rspStatus c st k) h)⟩
  | rspOk (st : Nat) (k : Key) (he : c.encrypted = false) (hs : rspStatus c st k = 0) : Eff d h c (.rcv h (.encRsp st k))
      ⟨0, put d h { c with encrypted := true }, [], tell (unmasked d 0x08) (.encChange 0 h true)⟩
  | rspBad (st : Nat) (k : Key) (he : c.encrypted = false) (hs : rspStatus c st k ≠ 0) : Eff d h c (.rcv h (.encRsp st k))
      ⟨0, d, [], tell (unmasked d 0x08) (.encChange (rspStatus c st k) h false)⟩
  | featReq : Eff d h c (.rcv h .featReq) ⟨0, d, [(h, .featRsp d.features 0)], []⟩
  | featRsp (f : Nat) : Eff d h c (.rcv h (.featRsp f 0))
      ⟨0, put d h { c with remote := some f }, [], tell (unmasked d 0x3e) (.features 0 h f)⟩
  | featBad (f st : Nat) (hs : st ≠ 0) : Eff d h c (.rcv h (.featRsp f st)) ⟨0, d, [], tell (unmasked d 0x3e) (.features st h f)⟩
  | verReq : Eff d h c (.rcv h .verReq) ⟨0, d, [(h, .verRsp d.version (d.subversion % 256) d.company)], []⟩
  | verRsp (v s m : Nat) : Eff d h c (.rcv h (.verRsp v s m)) ⟨0, d, [], tell (unmasked d 0x0c) (.version h v m s)⟩
  | acl (pb bc : Nat) (x : List UInt8) : Eff d h c (.rcv h (.acl pb bc x))
      ⟨0, d, [], [.acl h (if pb = 0 then 2 else pb) bc x]⟩

theorem effect {d : Dev} {m : Move} {o : Out} (hr : m.run d = some o) {h : Nat} {c : Conn} (hc : d.conns h = some c)
    (hh : m.handle d = some h) : Eff d h c m o := by
  cases m with
  | task =>
    simp only [Move.run, runTask] at hr
    cases ht : d.tasks with
    | nil => simp [Move.handle, ht] at hh
    | cons e l =>
      have he : e.handle = h := by simpa [Move.handle, ht] using hh
      subst he
      rw [ht] at hr
      simp only [hc] at hr
      cases hr
      exact .task e.rand e.ediv e.ltk l ht
  | cmd x =>
    cases x with
    | setDefaultPhy a b tx rx => simp [Move.handle] at hh
    | setMask => simp [Move.handle] at hh
    | setMask2 => simp [Move.handle] at hh
    | setLeMask => simp [Move.handle] at hh
    | setPhy k a b tx rx =>
      obtain rfl : k = h := by simpa [Move.handle] using hh
      simp only [Move.run, command, setPhy, hc] at hr
      (repeat' split at hr) <;> cases hr <;> first
        | exact .phySet a b tx rx
        | exact .phyBad a b tx rx _ (by decide)
    | enable k r e l =>
      obtain rfl : k = h := by simpa [Move.handle] using hh
      simp only [Move.run, command, enable, hc] at hr
      cases hr
      exact .enable r e l
    | reply k l =>
      obtain rfl : k = h := by simpa [Move.handle] using hh
      simp only [Move.run, command, reply, hc] at hr
      split at hr <;> cases hr
      · rename_i he; exact .refresh l he
      · rename_i he; exact .reply l (by simpa using he)
    | negative k =>
      obtain rfl : k = h := by simpa [Move.handle] using hh
      simp only [Move.run, command, negative, hc] at hr
      cases hr
      exact .negative
    | readFeatures k =>
      obtain rfl : k = h := by simpa [Move.handle] using hh
      simp only [Move.run, command, ask, hc] at hr
      cases hr
      exact .readFeatures
    | readVersion k =>
      obtain rfl : k = h := by simpa [Move.handle] using hh
      simp only [Move.run, command, ask, hc] at hr
      cases hr
      exact .readVersion
    | acl k pb bc data =>
      obtain rfl : k = h := by simpa [Move.handle] using hh
      simp only [Move.run, command, sendAcl, hc] at hr
      split at hr <;> cases hr
      rename_i hb
      exact .sendAcl pb bc data (by simpa using hb)
  | rcv k p =>
    obtain rfl : k = h := by simpa [Move.handle] using hh
    simp only [Move.run, receive, hc] at hr
    cases p with
    | phyReq tx rx =>
      simp only [onPhyReq] at hr
      split at hr <;> cases hr
      · rename_i he; exact .phyReqP tx rx he
      · rename_i he; exact .phyReqC tx rx (by cases hq : c.role <;> simp_all)
    | phyRsp tx rx =>
      simp only [onPhyRsp] at hr
      split at hr <;> cases hr
      rename_i he; exact .phyRsp tx rx (by cases hq : c.role <;> simp_all)
    | phyInd a b =>
      simp only [onPhyInd] at hr
      split at hr <;> cases hr
      rename_i he; exact .phyInd a b (by cases hq : c.role <;> simp_all)
    | enc r e l => cases hr; exact .enc r e l
    | encRsp st l =>
      simp only [onEncRsp] at hr
      split at hr
      · rename_i he; cases hr; exact .rspOn st l he
      · rename_i he
        split at hr <;> cases hr
        · rename_i hs; exact .rspOk st l (by simpa using he) hs
        · rename_i hs; exact .rspBad st l (by simpa using he) hs
    | featReq => cases hr; exact .featReq
    | featRsp f st =>
      simp only [onFeatRsp] at hr
      cases hr
      by_cases hst : st = 0
      · subst hst; exact .featRsp f
      · rw [if_neg hst]; exact .featBad f st hst
    | verReq => cases hr; exact .verReq
    | verRsp v s m => cases hr; exact .verRsp v s m
    | acl pb bc data => cases hr; exact .acl pb bc data

end Verif.Link
