import Verif.Lmp.FineLemmas

/-! # Balance of commands and answers, and absence of panics -/

namespace Verif.Lmp

variable {s : Bool}

def Out.answers (Q : Kind → Bool) : Out → Bool
  | .hci (.answer k _) => Q k
  | _ => false

def owed (Q : Kind → Bool) : Option Kind → Nat
  | some k => if Q k then 1 else 0
  | none => 0

theorem flush_fine (Q : Kind → Bool) : ∀ (p : Prog Unit) (o : Option Kind), Fine s o p →
    ((flush p).2 = .panic → s = false) ∧ (∀ q, (flush p).2 = .await q → Fine s none q) ∧
    ((flush p).2 ≠ .panic → (flush p).1.countP (Out.answers Q) = owed Q o)
  | .ret _, none, _ => ⟨nofun, nofun, fun _ => rfl⟩
  | .ret _, some _, h => by simp [Fine] at h
  | .send (.lmp _) p, none, h => by
    have ih := flush_fine Q p none h
    exact ⟨ih.1, ih.2.1, fun hn => by rw [flush, List.countP_cons_of_neg (by simp [Out.answers])]; exact ih.2.2 hn⟩
  | .send (.lmp _) p, some k, h => by
    have ih := flush_fine Q p (some k) h
    exact ⟨ih.1, ih.2.1, fun hn => by rw [flush, List.countP_cons_of_neg (by simp [Out.answers])]; exact ih.2.2 hn⟩
  | .send (.hci e) p, none, h => by
    have h' : Fine s none p := by
      cases e <;> first | exact h | (simp [Fine] at h)
    have he : ¬ Out.answers Q (.hci e) = true := by
      cases e <;> first | (simp [Out.answers]; done) | (simp [Fine] at h)
    have ih := flush_fine Q p none h'
    exact ⟨ih.1, ih.2.1, fun hn => by rw [flush, List.countP_cons_of_neg he]; exact ih.2.2 hn⟩
  | .send (.hci e) p, some k, h => by
    by_cases hp : e.plain = true
    · have h' : Fine s (some k) p := by
        cases e <;> first | exact h | (simp [Ev.plain] at hp)
      have he : ¬ Out.answers Q (.hci e) = true := by
        cases e <;> first | (simp [Out.answers]; done) | (simp [Ev.plain] at hp)
      have ih := flush_fine Q p (some k) h'
      exact ⟨ih.1, ih.2.1, fun hn => by rw [flush, List.countP_cons_of_neg he]; exact ih.2.2 hn⟩
    · cases e <;> first | (simp [Ev.plain] at hp; done) | skip
      rename_i k' st
      obtain ⟨rfl, h'⟩ := h
      have ih := flush_fine Q p none h'
      refine ⟨ih.1, ih.2.1, fun hn => ?_⟩
      have := ih.2.2 hn
      rw [flush, List.countP_cons, this]
      simp only [owed, Out.answers, Nat.zero_add]
      rfl
  | .recvHci acc k, none, h => ⟨nofun, fun q hq => by cases hq; exact h, fun _ => rfl⟩
  | .recvLmp acc k, none, h => ⟨nofun, fun q hq => by cases hq; exact h, fun _ => rfl⟩
  | .wait _ k, none, h => ⟨nofun, fun q hq => by cases hq; exact h, fun _ => rfl⟩
  | .passkey k, none, h => ⟨nofun, fun q hq => by cases hq; exact h, fun _ => rfl⟩
  | .recvHci _ _, some _, h => by simp [Fine] at h
  | .recvLmp _ _, some _, h => by simp [Fine] at h
  | .wait _ _, some _, h => by simp [Fine] at h
  | .passkey _, some _, h => by simp [Fine] at h
  | .panic, none, h => ⟨fun _ => h, nofun, fun hn => absurd rfl hn⟩
  | .panic, some _, h => ⟨fun _ => h, nofun, fun hn => absurd rfl hn⟩

def slotKind (c : Option Cmd) : Option Kind := c.map Cmd.kind

def AllGood (s : Bool) (q : List Lmp) : Prop := s = true → ∀ l ∈ q, l.wellFormed = true

theorem AllGood.tail {l : Lmp} {q : List Lmp} (h : AllGood s (l :: q)) : AllGood s q :=
  fun hs x hx => h hs x (List.mem_cons_of_mem _ hx)

/-- What taking something means: either a packet was taken, or the command in the slot, whose answer is
owed. -/
theorem offer_fine {p : Prog Unit} (h : Fine s none p) {slot : Option Cmd} {q : List Lmp} (hq : AllGood s q) {t : Take}
    (ht : offer p slot q = some t) :
    AllGood s t.queue ∧
    (t.yield = true → t.slot = slot) ∧
    (t.yield = false → ∃ o, Fine s o t.next ∧
      ((o = none ∧ t.slot = slot) ∨ (∃ c, slot = some c ∧ t.slot = none ∧ o = some c.kind))) := by
  cases p with
  | ret a => simp [offer] at ht
  | send o k => simp [offer] at ht
  | panic => simp [offer] at ht
  | recvHci acc k =>
    cases slot with
    | none => simp [offer] at ht
    | some c =>
      simp only [offer] at ht
      by_cases hc : acc c.kind = true
      · rw [if_pos hc] at ht
        cases ht
        exact ⟨hq, nofun, fun _ => ⟨some c.kind, h c hc, Or.inr ⟨c, rfl, rfl, rfl⟩⟩⟩
      · rw [if_neg hc] at ht
        cases ht
  | recvLmp acc k =>
    cases q with
    | nil => simp [offer] at ht
    | cons l q =>
      simp only [offer] at ht
      by_cases hc : acc l = true
      · rw [if_pos hc] at ht
        cases ht
        exact ⟨hq.tail, nofun, fun _ => ⟨none, h l hc (fun hs => hq hs l (by simp)), Or.inl ⟨rfl, rfl⟩⟩⟩
      · rw [if_neg hc] at ht
        cases ht
  | wait op k =>
    simp only [offer] at ht
    split at ht
    · rename_i o q
      split at ht
      · cases ht
        exact ⟨hq.tail, nofun, fun _ => ⟨none, h true, Or.inl ⟨rfl, rfl⟩⟩⟩
      · split at ht
        · split at ht
          · cases ht
            exact ⟨hq.tail.tail, nofun, fun _ => ⟨none, h false, Or.inl ⟨rfl, rfl⟩⟩⟩
          · cases ht
            exact ⟨hq.tail.tail, fun _ => rfl, nofun⟩
        · cases ht
          exact ⟨hq.tail, fun _ => rfl, nofun⟩
    · split at ht
      · cases ht
        exact ⟨hq.tail, nofun, fun _ => ⟨none, h false, Or.inl ⟨rfl, rfl⟩⟩⟩
      · cases ht
        exact ⟨hq.tail, fun _ => rfl, nofun⟩
    · cases ht
  | passkey k =>
    cases slot with
    | none => simp [offer] at ht
    | some c =>
      simp only [offer] at ht
      split at ht
      · cases ht
        exact ⟨hq, nofun, fun _ => ⟨some c.kind, ⟨rfl, h true⟩, Or.inr ⟨c, rfl, rfl, rfl⟩⟩⟩
      · split at ht
        · cases ht
          exact ⟨hq, nofun, fun _ => ⟨some c.kind, ⟨rfl, h false⟩, Or.inr ⟨c, rfl, rfl, rfl⟩⟩⟩
        · split at ht
          · cases ht
            exact ⟨hq, nofun, fun _ => ⟨some c.kind, ⟨rfl, h⟩, Or.inr ⟨c, rfl, rfl, rfl⟩⟩⟩
          · cases ht

structure ProcFine (s : Bool) (p : Proc) : Prop where
  top : Fine s none p.top
  cur : Fine s none p.cur

/-- The slot keeps its command or is emptied. -/
def SlotStep (c c' : Option Cmd) : Prop := c' = c ∨ c' = none

theorem SlotStep.trans {a b c : Option Cmd} (h : SlotStep a b) (h' : SlotStep b c) : SlotStep a c := by
  rcases h with rfl | rfl
  · exact h'
  · rcases h' with rfl | rfl
    · exact Or.inr rfl
    · exact Or.inr rfl

/-- The result of running procedures on `l`. -/
structure RunFine (s : Bool) (Q : Kind → Bool) (l l' : Local) : Prop where
  good : AllGood s l'.queue
  slot : SlotStep l.slot l'.slot
  count : l'.outs.countP (Out.answers Q) + owed Q (slotKind l'.slot) = l.outs.countP (Out.answers Q) + owed Q (slotKind l.slot)

theorem RunFine.trans {Q : Kind → Bool} {a b c : Local} (h : RunFine s Q a b) (h' : RunFine s Q b c) : RunFine s Q a c :=
  ⟨h'.good, h.slot.trans h'.slot, h'.count.trans h.count⟩

theorem pollProc_fine (Q : Kind → Bool) : ∀ (n : Nat) (pr : Proc) (l : Local), ProcFine s pr → AllGood s l.queue →
    (pollProc n pr l = none → s = false) ∧
    (∀ pr' l', pollProc n pr l = some (pr', l') → ProcFine s pr' ∧ RunFine s Q l l')
  | 0, pr, l, hp, hq => ⟨nofun, fun pr' l' h => by cases h; exact ⟨hp, hq, Or.inl rfl, rfl⟩⟩
  | n + 1, pr, l, hp, hq => by
    simp only [pollProc]
    cases ho : offer pr.cur l.slot l.queue with
    | none => exact ⟨nofun, fun pr' l' h => by cases h; exact ⟨hp, hq, Or.inl rfl, rfl⟩⟩
    | some t =>
      obtain ⟨h1, h2, h3⟩ := offer_fine hp.cur hq ho
      simp only
      cases hy : t.yield with
      | true =>
        exact ⟨nofun, fun pr' l' h => by cases h; exact ⟨hp, h1, Or.inl rfl, rfl⟩⟩
      | false =>
        obtain ⟨o, hf, hs⟩ := h3 hy
        obtain ⟨f1, f2, f3⟩ := flush_fine Q t.next o hf
        simp only [Bool.false_eq_true, if_false]
        have mid : (flush t.next).2 ≠ .panic → RunFine s Q l ⟨t.slot, t.queue, l.outs ++ (flush t.next).1⟩ := by
          intro hn
          have hcount := f3 hn
          refine ⟨h1, ?_, ?_⟩
          · rcases hs with ⟨-, h⟩ | ⟨c, -, h, -⟩
            · exact Or.inl h
            · exact Or.inr h
          · simp only [List.countP_append, hcount]
            rcases hs with ⟨ho, h⟩ | ⟨c, hc, h, ho⟩
            · rw [ho, h]; simp [owed]
            · rw [ho, h, hc]; simp [owed, slotKind]
        cases hfl : flush t.next with
        | mk outs st =>
          rw [hfl] at f1 f2 mid
          cases st with
          | panic => exact ⟨fun _ => f1 rfl, nofun⟩
          | await q =>
            have ih := pollProc_fine Q n { pr with cur := q, busy := true } ⟨t.slot, t.queue, l.outs ++ outs⟩
              ⟨hp.top, f2 q rfl⟩ h1
            exact ⟨ih.1, fun pr' l' h => ⟨(ih.2 pr' l' h).1, (mid nofun).trans (ih.2 pr' l' h).2⟩⟩
          | done =>
            have ih := pollProc_fine Q n { pr with cur := pr.top, busy := false } ⟨t.slot, t.queue, l.outs ++ outs⟩
              ⟨hp.top, hp.top⟩ h1
            exact ⟨ih.1, fun pr' l' h => ⟨(ih.2 pr' l' h).1, (mid nofun).trans (ih.2 pr' l' h).2⟩⟩

theorem pollAll_fine (Q : Kind → Bool) : ∀ (ps : List Proc) (l : Local), (∀ p ∈ ps, ProcFine s p) → AllGood s l.queue →
    (pollAll ps l = none → s = false) ∧
    (∀ ps' l', pollAll ps l = some (ps', l') → (∀ p ∈ ps', ProcFine s p) ∧ RunFine s Q l l')
  | [], l, hp, hq => ⟨nofun, fun ps' l' h => by cases h; exact ⟨nofun, hq, Or.inl rfl, rfl⟩⟩
  | p :: ps, l, hp, hq => by
    have h1 := pollProc_fine Q (pollFuel l) p l (hp p (by simp)) hq
    simp only [pollAll]
    cases h : pollProc (pollFuel l) p l with
    | none => exact ⟨fun _ => h1.1 h, nofun⟩
    | some x =>
      obtain ⟨p', l'⟩ := x
      obtain ⟨hp', hr⟩ := h1.2 p' l' h
      have ih := pollAll_fine Q ps l' (fun p hm => hp p (List.mem_cons_of_mem _ hm)) hr.good
      simp only
      cases h' : pollAll ps l' with
      | none => exact ⟨fun _ => ih.1 h', nofun⟩
      | some y =>
        obtain ⟨ps', l''⟩ := y
        obtain ⟨hps, hr'⟩ := ih.2 ps' l'' h'
        refine ⟨nofun, fun a b hab => ?_⟩
        cases hab
        refine ⟨fun q hm => ?_, hr.trans hr'⟩
        rcases List.mem_cons.1 hm with rfl | hm
        · exact hp'
        · exact hps q hm

theorem procedures_fine (f : Feats) : ∀ p ∈ procedures f, ProcFine s p := by
  intro p hp
  simp only [procedures, List.mem_cons, List.not_mem_nil, or_false] at hp
  rcases hp with rfl | rfl | rfl | rfl | rfl
  · exact ⟨fine_authInitiate f, fine_authInitiate f⟩
  · exact ⟨fine_authRespond, fine_authRespond⟩
  · exact ⟨fine_encInitiate f, fine_encInitiate f⟩
  · exact ⟨fine_encRespond f, fine_encRespond f⟩
  · exact ⟨fine_featuresRespond f, fine_featuresRespond f⟩

/-! ## Links -/

structure LinkFine (s : Bool) (l : Link) : Prop where
  procs : ∀ ps, l.procs = some ps → ∀ p ∈ ps, ProcFine s p
  queue : AllGood s l.queue

theorem holds_eq (P : Nat → Kind → Bool) (l : Link) :
    (if l.holds P then 1 else 0) = match l.slot with | some c => owed (P c.addr) (some c.kind) | none => 0 := by
  unfold Link.holds
  cases l.slot <;> rfl

/-- The slot's command counts the same under the address of the peer. -/
def Fits (P : Nat → Kind → Bool) (l : Link) : Prop := ∀ c, l.slot = some c → P c.addr c.kind = P l.peer c.kind

theorem holds_fits {P : Nat → Kind → Bool} {l : Link} (h : Fits P l) :
    (if l.holds P then 1 else 0) = owed (P l.peer) (slotKind l.slot) := by
  rw [holds_eq]
  cases hs : l.slot with
  | none => rfl
  | some c => simp [owed, slotKind, h c hs]

theorem countP_of (P : Nat → Kind → Bool) (a : Nat) (outs : List Out) :
    (outs.map (MOut.of a)).countP (MOut.isAnswer P) = outs.countP (Out.answers (P a)) := by
  rw [List.countP_map]
  congr 1
  funext o
  cases o with
  | lmp p => rfl
  | hci e => cases e <;> rfl

theorem link_tick {P : Nat → Kind → Bool} {l : Link} (h : LinkFine s l) (hf : Fits P l) :
    (l.tick = none → s = false) ∧
    (∀ l' o, l.tick = some (l', o) → LinkFine s l' ∧ l'.peer = l.peer ∧ SlotStep l.slot l'.slot ∧
      (o.map (MOut.of l.peer)).countP (MOut.isAnswer P) + (if l'.holds P then 1 else 0) = if l.holds P then 1 else 0) := by
  unfold Link.tick
  cases hps : l.procs with
  | none =>
    refine ⟨nofun, fun l' o h' => ?_⟩
    cases h'
    exact ⟨h, rfl, Or.inl rfl, by simp⟩
  | some ps =>
    have hp := pollAll_fine (P l.peer) ps ⟨l.slot, l.queue, []⟩ (h.procs ps hps) h.queue
    simp only
    cases hr : pollAll ps ⟨l.slot, l.queue, []⟩ with
    | none => exact ⟨fun _ => hp.1 hr, nofun⟩
    | some x =>
      obtain ⟨ps', l'⟩ := x
      obtain ⟨h1, h2⟩ := hp.2 ps' l' hr
      refine ⟨nofun, fun l'' o h' => ?_⟩
      cases h'
      refine ⟨⟨fun ps hps => by cases hps; exact h1, h2.good⟩, rfl, h2.slot, ?_⟩
      have hf' : Fits P ⟨l.peer, l'.slot, l'.queue, some ps'⟩ := by
        intro c hc
        rcases h2.slot with hs | hs
        · exact hf c (by rw [← hc]; exact hs.symm)
        · simp only at hc; rw [hs] at hc; cases hc
      rw [countP_of, holds_fits hf', holds_fits hf]
      have := h2.count
      simpa using this

theorem tickLinks_fine {P : Nat → Kind → Bool} : ∀ {ls : List Link}, (∀ l ∈ ls, LinkFine s l) → (∀ l ∈ ls, Fits P l) →
    (tickLinks ls = none → s = false) ∧
    (∀ ls' o, tickLinks ls = some (ls', o) → (∀ l ∈ ls', LinkFine s l) ∧
      ls'.map Link.peer = ls.map Link.peer ∧ (∀ l' ∈ ls', ∃ l ∈ ls, l'.peer = l.peer ∧ SlotStep l.slot l'.slot) ∧
      o.countP (MOut.isAnswer P) + ls'.countP (Link.holds P) = ls.countP (Link.holds P))
  | [], _, _ => ⟨nofun, fun ls' o h => by cases h; exact ⟨nofun, rfl, nofun, rfl⟩⟩
  | l :: ls, h, hf => by
    have h1 := link_tick (P := P) (h l (by simp)) (hf l (by simp))
    have ih := tickLinks_fine (P := P) (ls := ls) (fun x hx => h x (List.mem_cons_of_mem _ hx))
      (fun x hx => hf x (List.mem_cons_of_mem _ hx))
    simp only [tickLinks]
    cases ht : l.tick with
    | none => exact ⟨fun _ => h1.1 ht, nofun⟩
    | some x =>
      obtain ⟨l', o⟩ := x
      obtain ⟨a1, a2, a3, a4⟩ := h1.2 l' o ht
      simp only
      cases hr : tickLinks ls with
      | none => exact ⟨fun _ => ih.1 hr, nofun⟩
      | some y =>
        obtain ⟨ls', o'⟩ := y
        obtain ⟨b1, b2, b2', b3⟩ := ih.2 ls' o' hr
        refine ⟨nofun, fun ls'' o'' h' => ?_⟩
        cases h'
        refine ⟨fun x hx => ?_, by simp [a2, b2], fun x hx => ?_, ?_⟩
        · rcases List.mem_cons.1 hx with rfl | hx
          · exact a1
          · exact b1 x hx
        · rcases List.mem_cons.1 hx with rfl | hx
          · exact ⟨l, by simp, a2, a3⟩
          · obtain ⟨y, hy, h⟩ := b2' x hx
            exact ⟨y, List.mem_cons_of_mem _ hy, h⟩
        · rw [List.countP_append, List.countP_cons, List.countP_cons]
          omega

end Verif.Lmp
