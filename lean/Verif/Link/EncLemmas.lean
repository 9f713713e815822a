import Verif.Link.Effect
/-!
# Encryption at one end of a link -/
namespace Verif.Link

theorem encs_append (a b : List Pkt) : encs (a ++ b) = encs a ++ encs b := by simp [encs]
theorem answers_append (a b : List Pkt) : answers (a ++ b) = answers a ++ answers b := by simp [answers]

theorem encEnds_append (h : Nat) (l m : List Ev) : encEnds h (l ++ m) = encEnds h l ++ encEnds h m := by simp [encEnds]
theorem ltkAsks_append (h : Nat) (l m : List Ev) : ltkAsks h (l ++ m) = ltkAsks h l + ltkAsks h m := by simp [ltkAsks]

theorem encEnds_other {h : Nat} {l : List Ev} (hl : ∀ e ∈ l, e.handle ≠ h) : encEnds h l = [] := by
  simp only [encEnds, List.filterMap_eq_nil_iff]
  intro e he
  have := hl e he
  cases e <;> simp_all [encEnd, Ev.handle]

theorem ltkAsks_other {h : Nat} {l : List Ev} (hl : ∀ e ∈ l, e.handle ≠ h) : ltkAsks h l = 0 := by
  simp only [ltkAsks, List.length_eq_zero_iff, List.filter_eq_nil_iff]
  intro e he
  have := hl e he
  cases e <;> simp_all [Ev.handle]

theorem believes_append (h : Nat) : ∀ (l m : List Ev) (b : Bool), believes h b (l ++ m) = believes h (believes h b l) m
  | [], _, _ => rfl
  | _ :: l, m, _ => believes_append h l m _

theorem believes_other {h : Nat} : ∀ {l : List Ev}, (∀ e ∈ l, e.handle ≠ h) → ∀ b, believes h b l = b
  | [], _, _ => rfl
  | e :: l, hl, x => by
    have he := hl e (by simp)
    have ih := believes_other (fun e he => hl e (List.mem_cons_of_mem _ he)) (l := l)
    cases e <;> simp only [believes, Ev.handle] at he ⊢ <;> simp [he, ih]

/-- The step is about the encryption of connection `h`. -/
def Move.cares (d : Dev) (h : Nat) : Move → Bool
  | .cmd (.enable k _ _ _) => k = h
  | .cmd (.reply k _) => k = h
  | .cmd (.negative k) => k = h
  | .task => d.tasks.head?.map (·.handle) = some h
  | .rcv k (.enc _ _ _) => k = h
  | .rcv k (.encRsp _ _) => k = h
  | _ => false

theorem cares_other {d : Dev} {m : Move} {h : Nat} (hh : m.handle d ≠ some h) : m.cares d h = false := by
  cases m with
  | cmd c => cases c <;> simp_all [Move.cares, Move.handle]
  | task => simp_all [Move.cares, Move.handle]
  | rcv k p => cases p <;> simp_all [Move.cares, Move.handle]

/-- A step that is not about encryption. -/
structure Quiet (d : Dev) (h : Nat) (c : Conn) (m : Move) (o : Out) (c' : Conn) : Prop where
  conn : o.dev.conns h = some c'
  enc : c'.encrypted = c.encrypted
  ltk : c'.ltk = c.ltk
  tasks : tasksOf o.dev h = tasksOf d h
  encs : encs (over h o.out) = []
  answers : answers (over h o.out) = []
  ends : encEnds h o.ev = []
  asks : ltkAsks h o.ev = 0
  belief : ∀ b, believes h b o.ev = b
  came : Verif.Link.encs (m.arrived h) = []
  cameA : Verif.Link.answers (m.arrived h) = []

theorem quiet {d : Dev} {m : Move} {o : Out} (hr : m.run d = some o) {h : Nat} {c : Conn} (hc : d.conns h = some c)
    (hm : m.cares d h = false) : ∃ c', Quiet d h c m o c' := by
  by_cases hh : m.handle d = some h
  rotate_left
  · obtain ⟨h1, h2, h3, h4⟩ := frame hr hh
    refine ⟨c, ⟨h1.trans hc, rfl, rfl, ?_, by rw [h2]; rfl, by rw [h2]; rfl, encEnds_other h3, ltkAsks_other h3,
      believes_other h3, by rw [arrived_other hh]; rfl, by rw [arrived_other hh]; rfl⟩⟩
    simp only [tasksOf, h4]
  cases effect hr hc hh with
  | phyBad a b tx rx st hst => exact ⟨c, hc, rfl, rfl, rfl, rfl, rfl, rfl, rfl, fun _ => rfl, rfl, rfl⟩
  | phySet a b tx rx => exact ⟨_, put_same _ _ _, rfl, rfl, rfl, by rw [over_one]; rfl, by rw [over_one]; rfl, rfl, rfl, fun _ => rfl, rfl, rfl⟩
  | enable => simp [Move.cares] at hm
  | task r e k l ht => simp [Move.cares, ht] at hm
  | refresh => simp [Move.cares] at hm
  | reply => simp [Move.cares] at hm
  | negative => simp [Move.cares] at hm
  | readFeatures => exact ⟨c, hc, rfl, rfl, rfl, by rw [over_one]; rfl, by rw [over_one]; rfl, rfl, rfl, fun _ => rfl, rfl, rfl⟩
  | readVersion => exact ⟨c, hc, rfl, rfl, rfl, by rw [over_one]; rfl, by rw [over_one]; rfl, rfl, rfl, fun _ => rfl, rfl, rfl⟩
  | sendAcl => exact ⟨c, hc, rfl, rfl, rfl, by rw [over_one]; rfl, by rw [over_one]; rfl, rfl, rfl, fun _ => rfl, rfl, rfl⟩
  | phyReqP => exact ⟨c, hc, rfl, rfl, rfl, by rw [over_one]; rfl, by rw [over_one]; rfl, rfl, rfl, fun _ => rfl, by rw [arrived_rcv]; rfl, by rw [arrived_rcv]; rfl⟩
  | phyReqC => 
    refine ⟨_, put_same _ _ _, rfl, rfl, rfl, by rw [over_one]; rfl, by rw [over_one]; rfl, ?_, ?_, fun _ => ?_, by rw [arrived_rcv]; rfl, by rw [arrived_rcv]; rfl⟩ <;>
      simp only [tell] <;> split <;> rfl
  | phyRsp => 
    refine ⟨_, put_same _ _ _, rfl, rfl, rfl, by rw [over_one]; rfl, by rw [over_one]; rfl, ?_, ?_, fun _ => ?_, by rw [arrived_rcv]; rfl, by rw [arrived_rcv]; rfl⟩ <;>
      simp only [tell] <;> split <;> rfl
  | phyInd => 
    refine ⟨_, put_same _ _ _, rfl, rfl, rfl, rfl, rfl, ?_, ?_, fun _ => ?_, by rw [arrived_rcv]; rfl, by rw [arrived_rcv]; rfl⟩ <;>
      simp only [tell] <;> split <;> rfl
  | enc => simp [Move.cares] at hm
  | rspOn => simp [Move.cares] at hm
  | rspOk => simp [Move.cares] at hm
  | rspBad => simp [Move.cares] at hm
  | featReq => exact ⟨c, hc, rfl, rfl, rfl, by rw [over_one]; rfl, by rw [over_one]; rfl, rfl, rfl, fun _ => rfl, by rw [arrived_rcv]; rfl, by rw [arrived_rcv]; rfl⟩
  | featRsp => 
    refine ⟨_, put_same _ _ _, rfl, rfl, rfl, rfl, rfl, ?_, ?_, fun _ => ?_, by rw [arrived_rcv]; rfl, by rw [arrived_rcv]; rfl⟩ <;>
      simp only [tell] <;> split <;> rfl
  | featBad => 
    refine ⟨c, hc, rfl, rfl, rfl, rfl, rfl, ?_, ?_, fun _ => ?_, by rw [arrived_rcv]; rfl, by rw [arrived_rcv]; rfl⟩ <;>
      simp only [tell] <;> split <;> rfl
  | verReq => exact ⟨c, hc, rfl, rfl, rfl, by rw [over_one]; rfl, by rw [over_one]; rfl, rfl, rfl, fun _ => rfl, by rw [arrived_rcv]; rfl, by rw [arrived_rcv]; rfl⟩
  | verRsp => 
    refine ⟨c, hc, rfl, rfl, rfl, rfl, rfl, ?_, ?_, fun _ => ?_, by rw [arrived_rcv]; rfl, by rw [arrived_rcv]; rfl⟩ <;>
      simp only [tell] <;> split <;> rfl
  | acl => exact ⟨c, hc, rfl, rfl, rfl, rfl, rfl, rfl, rfl, fun _ => rfl, by rw [arrived_rcv]; rfl, by rw [arrived_rcv]; rfl⟩

theorem cares_handle {d : Dev} {m : Move} {h : Nat} (hm : m.cares d h = true) : m.handle d = some h := by
  apply Classical.byContradiction
  intro hh
  rw [cares_other hh] at hm
  cases hm

/-- A step keeps the belief right. -/
theorem belief_move {d : Dev} {m : Move} {o : Out} (hr : m.run d = some o) {h : Nat} {c : Conn} (hc : d.conns h = some c)
    (hu : d.mask.testBit 7 = true) : ∃ c', o.dev.conns h = some c' ∧ believes h c.encrypted o.ev = c'.encrypted := by
  cases hm : m.cares d h
  · obtain ⟨c', q⟩ := quiet hr hc hm
    exact ⟨c', q.conn, by rw [q.belief, q.enc]⟩
  have h8 : unmasked d 8 = true := by simp [unmasked, hu]
  cases effect hr hc (cares_handle hm) with
  | enable r e k => exact ⟨c, hc, rfl⟩
  | task r e k l ht => exact ⟨_, put_same _ _ _, rfl⟩
  | refresh k he => exact ⟨c, hc, by simp only [tell]; split <;> simp [believes]⟩
  | reply k he =>
    refine ⟨_, put_same _ _ _, ?_⟩
    simp only [tell, h8]
    split <;> simp [believes]
  | negative => exact ⟨c, hc, rfl⟩
  | enc r e k => exact ⟨_, put_same _ _ _, by simp only [tell]; split <;> simp [believes]⟩
  | rspOn st k he => exact ⟨c, hc, by simp only [tell]; split <;> simp [believes]⟩
  | rspOk st k he hs => exact ⟨_, put_same _ _ _, by simp [tell, h8, believes]⟩
  | rspBad st k he hs => exact ⟨c, hc, by simp [tell, h8, believes, hs]⟩
  | _ => simp [Move.cares] at hm

theorem mask_move {d : Dev} {m : Move} {o : Out} (hr : m.run d = some o) (i : Nat)
    (hm : ∀ x, Cmd.setMask x ∈ m.cmds → x.testBit i = true) (hu : d.mask.testBit i = true) :
    o.dev.mask.testBit i = true := by
  rw [(settings hr).1]
  cases m with
  | cmd c => cases c <;> simp_all [Move.mask, Move.cmds]
  | _ => exact hu

end Verif.Link
