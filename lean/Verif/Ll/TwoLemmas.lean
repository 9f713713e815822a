import Verif.Ll.SpecTwo
import Verif.Ll.LinksLemmas
import Verif.Ll.InitLemmas
import Verif.Ll.ScanLemmas
/-! # Two devices and their connection: helper lemmas (C121) -/
namespace Verif.Ll
open Verif.Le

/-! ### The words alone -/

/-- What the initiator has after a word. -/
def land (b : Option Tie) : LWord → Option Tie
  | .ask _ => b
  | .yes t => some t
  | .bye u v => b.filter (fun t => !(t.adv.address = u && t.init.address = v))

/-- After all words that are on their way. -/
def drain (b : Option Tie) (w : List LWord) : Option Tie := w.foldl land b

/-- Nothing follows a request. -/
def AskLast : List LWord → Prop
  | [] => True
  | .ask _ :: r => r = []
  | _ :: r => AskLast r

def LWord.isYes : LWord → Bool
  | .yes _ => true
  | _ => false

structure TwoInv (a b : Option Tie) (pend : Option AddressWithType) (on : Bool) (wA wB : List LWord) : Prop where
  noYes : ∀ t, .yes t ∉ wA
  noAsk : ∀ t, .ask t ∉ wB
  askLast : AskLast wA
  askPend : ∀ t, .ask t ∈ wA → pend = some t.adv ∧ b = none ∧ ∀ t', .yes t' ∉ wB
  yesPend : ∀ t, .yes t ∈ wB → pend = some t.adv ∧ b = none ∧ ∀ u v, .bye u v ∉ wA
  yesOnce : wB.countP LWord.isYes ≤ 1
  onFree : on = true → b = none
  held : b ≠ none → ∀ u v, .bye u v ∉ wA
  one : ∀ t, a = some t → drain b wB = some t ∨ ∃ u v, .bye u v ∈ wA
  nothing : a = none → drain b wB = none
  going : ∀ t u v, a = some t → .bye u v ∈ wA → u = t.init.address ∧ v = t.adv.address ∧ drain b wB = none

theorem drain_append (b : Option Tie) (w : List LWord) (x : LWord) : drain b (w ++ [x]) = land (drain b w) x := by
  simp [drain]

theorem drain_none {w : List LWord} (h : ∀ t, .yes t ∉ w) : drain none w = none := by
  induction w with
  | nil => rfl
  | cons x w ih =>
    cases x with
    | yes t => exact absurd List.mem_cons_self (h t)
    | ask t => exact ih (fun t ht => h t (List.mem_cons_of_mem _ ht))
    | bye u v => exact ih (fun t ht => h t (List.mem_cons_of_mem _ ht))

theorem drain_some {w : List LWord} {b : Option Tie} {t : Tie} (h : ∀ t, .yes t ∉ w) (hd : drain b w = some t) : b = some t := by
  induction w generalizing b with
  | nil => exact hd
  | cons x w ih =>
    have h' : ∀ t, .yes t ∉ w := fun t ht => h t (List.mem_cons_of_mem _ ht)
    cases x with
    | yes t => exact absurd List.mem_cons_self (h t)
    | ask t => exact ih h' hd
    | bye u v =>
      have := ih h' (b := land b (.bye u v)) hd
      simp only [land] at this
      exact (Option.filter_eq_some_iff.1 this).1

theorem drain_keeps {w : List LWord} {b : Option Tie} (h : ∀ t, .ask t ∉ w) (h1 : ∀ t, .yes t ∉ w) (h2 : ∀ u v, .bye u v ∉ w) : drain b w = b := by
  cases w with
  | nil => rfl
  | cons x w =>
    cases x with
    | ask t => exact absurd List.mem_cons_self (h t)
    | yes t => exact absurd List.mem_cons_self (h1 t)
    | bye u v => exact absurd List.mem_cons_self (h2 u v)

theorem askLast_append {w : List LWord} {x : LWord} (h : ∀ t, .ask t ∉ w) : AskLast (w ++ [x]) := by
  induction w with
  | nil => cases x <;> trivial
  | cons y w ih =>
    have h' : ∀ t, .ask t ∉ w := fun t ht => h t (List.mem_cons_of_mem _ ht)
    cases y with
    | ask t => exact absurd List.mem_cons_self (h t)
    | yes t => exact ih h'
    | bye u v => exact ih h'

theorem AskLast.tail {x : LWord} {r : List LWord} (h : AskLast (x :: r)) : AskLast r := by
  cases x with
  | ask t => cases (h : r = []); trivial
  | yes t => exact h
  | bye u v => exact h

namespace TwoInv

theorem start : TwoInv none none none false [] [] where
  noYes := by simp
  noAsk := by simp
  askLast := trivial
  askPend := by simp
  yesPend := by simp
  yesOnce := by simp
  onFree := fun _ => rfl
  held := by simp
  one := by simp
  nothing := fun _ => rfl
  going := by simp

variable {a b : Option Tie} {pend : Option AddressWithType} {on : Bool} {wA wB : List LWord}

theorem aBye {t : Tie} (i : TwoInv (some t) b pend on wA wB) : TwoInv none b pend on wA (wB ++ [.bye t.adv.address t.init.address]) where
  noYes := i.noYes
  noAsk := by simpa using i.noAsk
  askLast := i.askLast
  askPend := fun t ht => by simpa using i.askPend t ht
  yesPend := fun t ht => i.yesPend t (by simpa using ht)
  yesOnce := by simpa [LWord.isYes] using i.yesOnce
  onFree := i.onFree
  held := i.held
  one := by simp
  nothing := fun _ => by
    rw [drain_append]
    rcases i.one t rfl with h | ⟨u, v, h⟩
    · simp [h, land, Option.filter]
    · simp [(i.going t u v rfl h).2.2, land]
  going := by simp

theorem bBye {t : Tie} (i : TwoInv a (some t) pend on wA wB) (pend' : Option AddressWithType) :
    TwoInv a none pend' on (wA ++ [.bye t.init.address t.adv.address]) wB := by
  have na : ∀ t, .ask t ∉ wA := fun t ht => by simpa using (i.askPend t ht).2.1
  have ny : ∀ t, .yes t ∉ wB := fun t ht => by simpa using (i.yesPend t ht).2.1
  have nb := i.held (by simp)
  constructor
  · simpa using i.noYes
  · exact i.noAsk
  · exact askLast_append na
  · intro t ht; exact absurd (by simpa using ht) (na t)
  · intro t ht; exact absurd ht (ny t)
  · exact i.yesOnce
  · intro; rfl
  · simp
  · intro t _; exact .inr ⟨_, _, List.mem_append_right _ (List.mem_singleton.2 rfl)⟩
  · intro _; exact drain_none ny
  · intro t' u v ha hb
    have hb' : u = t.init.address ∧ v = t.adv.address := by simpa [nb] using hb
    rcases i.one t' ha with h | ⟨u, v, h⟩
    · have := drain_some ny h
      cases this
      exact ⟨hb'.1, hb'.2, drain_none ny⟩
    · exact absurd h (nb u v)

theorem ask (i : TwoInv a b none true wA wB) (t : Tie) : TwoInv a b (some t.adv) true (wA ++ [.ask t]) wB := by
  have na : ∀ t, .ask t ∉ wA := fun t ht => by simpa using (i.askPend t ht).1
  have ny : ∀ t, .yes t ∉ wB := fun t ht => by simpa using (i.yesPend t ht).1
  constructor
  · simpa using i.noYes
  · exact i.noAsk
  · exact askLast_append na
  · intro t' ht
    have : t' = t := by simpa [na] using ht
    subst this
    exact ⟨rfl, i.onFree rfl, ny⟩
  · intro t ht; exact absurd ht (ny t)
  · exact i.yesOnce
  · exact i.onFree
  · intro h; exact absurd (i.onFree rfl) h
  · intro t ht; simpa using i.one t ht
  · exact i.nothing
  · intro t u v ha hb; exact i.going t u v ha (by simpa using hb)

theorem aGetsBye {u v : Address} (i : TwoInv a b pend on (.bye u v :: wA) wB) :
    TwoInv (a.filter (fun t => !(t.init.address = u && t.adv.address = v))) b pend on wA wB := by
  have ha : a.filter (fun t => !(t.init.address = u && t.adv.address = v)) = none := by
    cases a with
    | none => rfl
    | some t =>
      obtain ⟨rfl, rfl, -⟩ := i.going t u v rfl List.mem_cons_self
      simp [Option.filter]
  have hd : drain b wB = none := by
    cases a with
    | none => exact i.nothing rfl
    | some t => exact (i.going t u v rfl List.mem_cons_self).2.2
  rw [ha]
  constructor
  · exact fun t ht => i.noYes t (List.mem_cons_of_mem _ ht)
  · exact i.noAsk
  · exact i.askLast.tail
  · exact fun t ht => i.askPend t (List.mem_cons_of_mem _ ht)
  · exact fun t ht => absurd List.mem_cons_self ((i.yesPend t ht).2.2 u v)
  · exact i.yesOnce
  · exact i.onFree
  · exact fun h => absurd List.mem_cons_self (i.held h u v)
  · simp
  · exact fun _ => hd
  · simp

/-- A request arrives: the advertiser has no connection, and nothing else is on its way to it. -/
theorem asked {t : Tie} (i : TwoInv a b pend on (.ask t :: wA) wB) : a = none ∧ wA = [] := by
  have hw : wA = [] := i.askLast
  subst hw
  obtain ⟨-, hb, hy⟩ := i.askPend t List.mem_cons_self
  refine ⟨?_, rfl⟩
  cases a with
  | none => rfl
  | some t' =>
    rcases i.one t' rfl with h | ⟨u, v, h⟩
    · rw [hb, drain_none hy] at h; cases h
    · simp at h

theorem aRefuses {t : Tie} (i : TwoInv a b pend on (.ask t :: wA) wB) : TwoInv a b pend on wA wB := by
  obtain ⟨rfl, rfl⟩ := i.asked
  obtain ⟨-, hb, hy⟩ := i.askPend t List.mem_cons_self
  constructor
  · simp
  · exact i.noAsk
  · trivial
  · simp
  · exact fun t ht => absurd ht (hy t)
  · exact i.yesOnce
  · exact i.onFree
  · simp
  · simp
  · exact i.nothing
  · simp

theorem aAccepts {t : Tie} (i : TwoInv a b pend on (.ask t :: wA) wB) : TwoInv (some t) b pend on wA (wB ++ [.yes t]) := by
  obtain ⟨rfl, rfl⟩ := i.asked
  obtain ⟨hp, hb, hy⟩ := i.askPend t List.mem_cons_self
  constructor
  · simp
  · simpa using i.noAsk
  · trivial
  · simp
  · intro t' ht
    have : t' = t := by simpa [hy] using ht
    subst this
    exact ⟨hp, hb, by simp⟩
  · have : wB.countP LWord.isYes = 0 := by
      rw [List.countP_eq_zero]
      intro x hx hc
      cases x with
      | yes t => exact hy t hx
      | ask t => cases hc
      | bye u v => cases hc
    simp [this, LWord.isYes]
  · exact i.onFree
  · simp
  · intro t' ht; cases ht; rw [drain_append]; exact .inl rfl
  · simp
  · simp

theorem bGetsBye {u v : Address} (i : TwoInv a b pend on wA (.bye u v :: wB)) :
    TwoInv a (b.filter (fun t => !(t.adv.address = u && t.init.address = v))) pend on wA wB := by
  have hn : ∀ {b : Option Tie} {p : Tie → Bool}, b = none → b.filter p = none := by rintro _ _ rfl; rfl
  constructor
  · exact i.noYes
  · exact fun t ht => i.noAsk t (List.mem_cons_of_mem _ ht)
  · exact i.askLast
  · intro t ht
    obtain ⟨h1, h2, h3⟩ := i.askPend t ht
    exact ⟨h1, hn h2, fun t' ht' => h3 t' (List.mem_cons_of_mem _ ht')⟩
  · intro t ht
    obtain ⟨h1, h2, h3⟩ := i.yesPend t (List.mem_cons_of_mem _ ht)
    exact ⟨h1, hn h2, h3⟩
  · simpa [LWord.isYes] using i.yesOnce
  · exact fun h => hn (i.onFree h)
  · exact fun h => i.held (fun hb => h (hn hb))
  · exact i.one
  · exact i.nothing
  · exact i.going

theorem bGetsYes {t : Tie} (i : TwoInv a b pend on wA (.yes t :: wB)) :
    pend = some t.adv ∧ b = none ∧ TwoInv a (some t) none false wA wB := by
  obtain ⟨hp, hb, hn⟩ := i.yesPend t List.mem_cons_self
  have ny : ∀ t, .yes t ∉ wB := by
    have := i.yesOnce
    rw [List.countP_cons_of_pos rfl] at this
    have : wB.countP LWord.isYes = 0 := by omega
    rw [List.countP_eq_zero] at this
    exact fun t ht => this _ ht rfl
  have na : ∀ t, .ask t ∉ wA := fun t' ht => (i.askPend t' ht).2.2 t List.mem_cons_self
  refine ⟨hp, hb, ?_⟩
  constructor
  · exact i.noYes
  · exact fun t ht => i.noAsk t (List.mem_cons_of_mem _ ht)
  · exact i.askLast
  · exact fun t ht => absurd ht (na t)
  · exact fun t ht => absurd ht (ny t)
  · have := i.yesOnce
    rw [List.countP_cons_of_pos rfl] at this
    omega
  · exact fun h => by cases h
  · exact fun _ => hn
  · exact i.one
  · exact i.nothing
  · exact i.going

/-- The initiator is switched on, when it has no connection and nothing it waits for. -/
theorem switch (i : TwoInv a b pend on wA wB) {pend' : Option AddressWithType} {on' : Bool} (ho : on' = true → b = none)
    (hp : pend' = pend ∨ ((∀ t, .ask t ∉ wA) ∧ ∀ t, .yes t ∉ wB)) : TwoInv a b pend' on' wA wB where
  noYes := i.noYes
  noAsk := i.noAsk
  askLast := i.askLast
  askPend := fun t ht => by
    rcases hp with rfl | ⟨h, -⟩
    · exact i.askPend t ht
    · exact absurd ht (h t)
  yesPend := fun t ht => by
    rcases hp with rfl | ⟨-, h⟩
    · exact i.yesPend t ht
    · exact absurd ht (h t)
  yesOnce := i.yesOnce
  onFree := ho
  held := i.held
  one := i.one
  nothing := i.nothing
  going := i.going

end TwoInv

/-! ### The devices -/

theorem lwords_append (p q : List Packet) : lwords (p ++ q) = lwords p ++ lwords q := List.filterMap_append ..

theorem sent_append (p q : List Out) : sent (p ++ q) = sent p ++ sent q := List.filterMap_append ..

/-- The words among some outputs. -/
def said (out : List Out) : List LWord := lwords (sent out)

theorem said_append (p q : List Out) : said (p ++ q) = said p ++ said q := by simp only [said, sent_append, lwords_append]

theorem said_nil {out : List Out} (h : ∀ o ∈ out, ∀ p, o = .send p → lword p = none) : said out = [] := by
  simp only [said, sent, lwords, List.filterMap_filterMap, List.filterMap_eq_nil_iff]
  intro o ho
  cases o with
  | send p => exact h _ ho p rfl
  | _ => rfl

/-- A command keeps the initiator, or asks for a connection, or cancels. -/
theorem runCmd_two {cfg : Config} {s s' : Le.State} {c : Cmd} {e : Status} (h : runCmd cfg s c = .ret s' e) :
    (s'.initiator.enable = s.initiator.enable ∧ s'.initiator.pendingConnectRequest = s.initiator.pendingConnectRequest) ∨
    (((∃ rnd po pe ow p, c = .createConnection rnd po pe ow p) ∨ ∃ rnd po ow pe ph p, c = .extendedCreateConnection rnd po ow pe ph p) ∧
      s'.initiator.enable = true ∧ s'.initiator.pendingConnectRequest = none) ∨
    (s'.initiator.enable = false ∧ s'.initiator.pendingConnectRequest = s.initiator.pendingConnectRequest) := by
  cases c
  case setExtAdvertisingEnable =>
    obtain ⟨m, r, x, rfl⟩ := extEnable_frame (runCmd_extEnable h); exact .inl ⟨rfl, rfl⟩
  case createConnection rnd policy peer own p =>
    obtain ⟨rfl, -⟩ := runCmd_ret_of h
    simp only [createConnection, withLegacy, checkedThen]
    split
    · exact .inl ⟨rfl, rfl⟩
    split
    · split
      · obtain ⟨r, hr⟩ := initiatorAddressCheck_fst rnd { s with legacyInUse := true } policy peer own
        rw [hr]; exact .inl ⟨rfl, rfl⟩
      · exact .inr (.inl ⟨.inl ⟨_, _, _, _, _, rfl⟩, rfl, rfl⟩)
    · exact .inl ⟨rfl, rfl⟩
  case extendedCreateConnection rnd policy own peer phys params =>
    obtain ⟨rfl, -⟩ := runCmd_ret_of h
    simp only [extendedCreateConnection, withExtended, checkedThen]
    split
    · exact .inl ⟨rfl, rfl⟩
    split
    · split
      · obtain ⟨r, hr⟩ := initiatorAddressCheck_fst rnd { s with extendedInUse := true } policy peer own
        rw [hr]; exact .inl ⟨rfl, rfl⟩
      · exact .inr (.inl ⟨.inr ⟨_, _, _, _, _, _, rfl⟩, rfl, rfl⟩)
    · exact .inl ⟨rfl, rfl⟩
  all_goals
    obtain ⟨rfl, -⟩ := runCmd_ret_of h
    unfold_handlers
    repeat' split
    all_goals first | exact .inl ⟨rfl, rfl⟩ | exact .inr (.inr ⟨rfl, rfl⟩) | (simp_all; done)

/-- The initiator's part of a state that matters here. -/
abbrev State.on (s : State) : Bool := s.le.initiator.enable
abbrev State.pend (s : State) : Option AddressWithType := s.le.initiator.pendingConnectRequest

/-- What a step does to the connections and the initiator, and what it says. -/
inductive TwoStep (s s' : State) (w : List LWord) : Op → Prop
  | calm {o : Op} (ho : ∀ rnd now p, o = .receive rnd now p → (∀ t, lword p ≠ some (.yes t)) ∧
        ∀ u v, lword p = some (.bye u v) → Conn.firstWith (fun c : LeConn => c.address.address = u && c.own.address = v) s.conns = none)
      (hr : o ≠ .reset) (h1 : s'.conns = s.conns) (h2 : s'.on = s.on) (h3 : s'.pend = s.pend) (h4 : w = []) : TwoStep s s' w o
  | stray {rnd now i a q} (hp : s.pend ≠ some a) : TwoStep s s' w (.receive rnd now (.connectComplete i a q))
  | create {c : Cmd} (hc : (∃ rnd po pe ow p, c = .createConnection rnd po pe ow p) ∨ ∃ rnd po ow pe ph p, c = .extendedCreateConnection rnd po ow pe ph p)
      (h1 : s'.conns = s.conns) (h2 : s'.on = true) (h3 : s'.pend = none) (h4 : w = []) : TwoStep s s' w (.cmd c)
  | cancel {c : Cmd} (h1 : s'.conns = s.conns) (h2 : s'.on = false) (h3 : s'.pend = s.pend) (h4 : w = []) : TwoStep s s' w (.cmd c)
  | ask {rnd now p} (t : Tie) (h0 : lword p = none) (ho : s.on = true) (hp : s.pend = none) (h1 : s'.conns = s.conns) (h2 : s'.on = s.on) (h3 : s'.pend = some t.adv)
      (h4 : w = [.ask t]) : TwoStep s s' w (.receive rnd now p)
  | accept {rnd now i a q} (k : Nat) (c : LeConn) (h1 : s'.conns = (k, c) :: s.conns) (hc : c.own = a ∧ c.address = i ∧ c.params = q ∧ c.role = .peripheral)
      (h2 : s'.on = s.on) (h3 : s'.pend = s.pend) (h4 : w = [.yes ⟨i, a, q⟩]) : TwoStep s s' w (.receive rnd now (.connect i a q))
  | complete {rnd now i a q} (k : Nat) (c : LeConn) (h1 : s'.conns = (k, c) :: s.conns) (hc : c.own = i ∧ c.address = a ∧ c.params = q ∧ c.role = .central)
      (h2 : s'.on = false) (h3 : s'.pend = none) (h4 : w = []) : TwoStep s s' w (.receive rnd now (.connectComplete i a q))
  | got {rnd now u v r} (k : Nat) (c : LeConn) (hf : Conn.firstWith (fun c : LeConn => c.address.address = u && c.own.address = v) s.conns = some (k, c))
      (h1 : s'.conns = Conn.erase s.conns k) (h2 : s'.on = s.on) (h3 : s'.pend = s.pend) (h4 : w = []) : TwoStep s s' w (.receive rnd now (.link u v (.disconnect r)))
  | drop {h r r' : Nat} (c : LeConn) (hf : Conn.find s.conns h = some c) (h1 : s'.conns = Conn.erase s.conns h) (h2 : s'.on = s.on) (h3 : s'.pend = s.pend)
      (h4 : w = [.bye c.own.address c.address.address]) : TwoStep s s' w (.disconnect h r r')
  | reset (h1 : s'.conns = []) (h2 : s'.on = false) (h3 : s'.pend = none) (h4 : w = s.conns.map (fun e => .bye e.2.own.address e.2.address.address)) :
      TwoStep s s' w .reset

theorem legacyReports_said (ah : Hash) (s : Le.State) (p : LegacyPdu) (r : AddressWithType) : said (legacyReports ah s p r) = [] := by
  unfold legacyReports
  generalize s.legacyInUse = lu
  generalize s.extendedInUse = eu
  generalize wantsDirectedReport ah s p.type.directed r p.target = wd
  cases lu <;> cases eu <;> cases wd <;> rfl

theorem extReports_said (p : ExtPdu) (r : AddressWithType) : said (extReports p r) = [] := by
  apply said_nil
  intro o ho q hc
  simp only [extReports, List.mem_map] at ho
  obtain ⟨x, -, rfl⟩ := ho
  cases hc

theorem handleConnection_two {s : State} {c : LeConn} {ch : Bool} {x : Nat × State × List Out} (h : handleConnection s c ch = .ok x) :
    x.2.1.conns = (x.1, c) :: s.conns ∧ x.2.1.on = s.on ∧ x.2.1.pend = s.pend ∧ said x.2.2 = [] := by
  unfold handleConnection at h
  split at h
  · cases h
  · split at h
    · cases h
    · cases h
      refine ⟨rfl, rfl, rfl, ?_⟩
      cases ch <;> rfl

/-- A packet that is no word. -/
theorem TwoStep.quiet {s s' : State} {w : List LWord} {rnd : Irk → Address} {now : Nat} {p : Packet} (h0 : ∀ t, lword p ≠ some (.yes t))
    (hb : ∀ u v, lword p ≠ some (.bye u v)) (h1 : s'.conns = s.conns) (h2 : s'.on = s.on) (h3 : s'.pend = s.pend) (h4 : w = []) : TwoStep s s' w (.receive rnd now p) :=
  .calm (fun _ _ _ h => by cases h; exact ⟨h0, fun u v h => absurd h (hb u v)⟩) (by simp) h1 h2 h3 h4

/-- Something else than a packet or a reset. -/
theorem TwoStep.still {s s' : State} {w : List LWord} {o : Op} (ho : o.own = true) (hr : o ≠ .reset) (h1 : s'.conns = s.conns) (h2 : s'.on = s.on)
    (h3 : s'.pend = s.pend) (h4 : w = []) : TwoStep s s' w o :=
  .calm (fun _ _ _ h => by subst h; cases ho) hr h1 h2 h3 h4

theorem step_two {ah : Hash} {cfg : Config} {s : State} {o : Op} {x : State × Obs}
    (h : step ah cfg s o = .ok x) : TwoStep s x.1 (said x.2.out) o := by
  cases o with
  | cmd c =>
    simp only [step] at h
    obtain ⟨y, hy, h⟩ := Res.bind_eq_ok h
    cases h
    have hr : ∃ e, runCmd cfg s.le c = .ret y.1.le e ∧ y.1.conns = s.conns := by
      simp only [command] at hy
      split at hy
      · cases hy
      · rename_i le e hr
        split at hy <;> (cases hy; exact ⟨e, hr, rfl⟩)
    obtain ⟨e, hr, hc⟩ := hr
    rcases runCmd_two hr with ⟨h1, h2⟩ | ⟨h0, h1, h2⟩ | ⟨h1, h2⟩
    · exact .still rfl (by simp) hc h1 h2 rfl
    · exact .create h0 hc h1 h2 rfl
    · exact .cancel hc h1 h2 rfl
  | receive rnd now p =>
    simp only [step] at h
    obtain ⟨y, hy, h⟩ := Res.bind_eq_ok h
    cases h
    cases p with
    | legacyAdv p =>
      obtain ⟨u, v, hu, hv, rfl⟩ := receive_legacyAdv hy
      obtain ⟨l, hi, q, h1⟩ := scanLegacy_frame hu
      obtain ⟨w, hw, ho⟩ := scanLegacy_out hu
      have hc : said u.2 = [] := by
        rw [ho, said_append]
        have e1 : said w = [] := by rcases hw with rfl | ⟨-, _, rfl⟩ <;> rfl
        rw [e1]
        split
        · rw [legacyReports_said]; rfl
        · rfl
      rcases connectLegacy_frame hv with ⟨l', rfl⟩ | ⟨l', own, -, g1, g2, rfl⟩
      · exact .quiet nofun nofun (by simp only [h1]) (by simp only [h1]) (by simp only [h1]) (by simp only [said_append, hc]; rfl)
      · rw [h1] at g1 g2
        exact .ask ⟨own, p.adv, requestParams u.1.le⟩ rfl g1 g2 (by simp only [h1]) (by simp only [h1]) rfl (by simp only [said_append, hc]; rfl)
    | extAdv p =>
      obtain ⟨u, v, hu, hv, rfl⟩ := receive_extAdv hy
      obtain ⟨l, hi, q, h1⟩ := scanExtended_frame hu
      obtain ⟨w, hw, ho⟩ := scanExtended_out hu
      have hc : said u.2 = [] := by
        rw [ho, said_append]
        have e1 : said w = [] := by rcases hw with rfl | ⟨-, _, rfl⟩ <;> rfl
        rw [e1]
        split
        · rw [extReports_said]; rfl
        · rfl
      rcases connectExtended_frame hv with ⟨l', rfl⟩ | ⟨l', own, -, g1, g2, rfl⟩
      · exact .quiet nofun nofun (by simp only [h1]) (by simp only [h1]) (by simp only [h1]) (by simp only [said_append, hc]; rfl)
      · rw [h1] at g1 g2
        exact .ask ⟨own, p.adv, requestParams u.1.le⟩ rfl g1 g2 (by simp only [h1]) (by simp only [h1]) rfl (by simp only [said_append, hc]; rfl)
    | periodic q =>
      have key : y.1.conns = s.conns ∧ y.1.le.initiator = s.le.initiator ∧ said y.2 = [] := by
        obtain ⟨r, hr⟩ := resolveUpdate_frame ah s.le q.adv
        simp only [receive, periodicPdu] at hy
        split at hy
        · cases hy; exact ⟨rfl, rfl, rfl⟩
        split at hy
        · cases hy; exact ⟨rfl, rfl, rfl⟩
        split at hy
        · split at hy
          · cases hy; exact ⟨rfl, by simp only [hr], rfl⟩
          · split at hy
            · cases hy
            · cases hy; exact ⟨rfl, by simp only [hr], rfl⟩
        · cases hy
          refine ⟨rfl, by simp only [hr], said_nil ?_⟩
          intro o ho p hp
          subst hp
          simp at ho
      exact .quiet nofun nofun key.1 (by simp only [State.on, key.2.1]) (by simp only [State.pend, key.2.1]) key.2.2
    | connect init adv q =>
      simp only [receive, incomingConnect] at hy
      obtain ⟨⟨b, s1, o1⟩, hl, hx⟩ := Res.bind_eq_ok hy
      rcases legacyConnect_cases hl with ⟨hb, ho, ⟨r, hs⟩, -⟩ | ⟨hb, -, -, -, -, z, hz, hx'⟩
      · simp only at hb ho hs
        subst hb ho hs
        simp only [Bool.false_eq_true, if_false] at hx
        rcases extConnectAll_cases _ hx with ⟨g1, ⟨r', g2⟩, -⟩ | ⟨k, a, s2, -, -, ⟨⟨r', hs2⟩, -⟩, z, hz, rfl⟩
        · exact .quiet nofun nofun (by rw [g2]) (by rw [g2]) (by rw [g2]) (by rw [g1]; rfl)
        · obtain ⟨h1, h2, h3, h4⟩ := handleConnection_two hz
          obtain ⟨u, hu⟩ := resolveUpdate_frame ah s2.le init
          rw [hu] at h1 h2 h3
          subst hs2
          exact .accept z.1 _ h1 ⟨rfl, rfl, rfl, rfl⟩ h2 h3 (by simp only [said_append, h4]; rfl)
      · simp only at hb hx'
        subst hb
        simp only [if_true] at hx
        cases hx
        cases hx'
        obtain ⟨h1, h2, h3, h4⟩ := handleConnection_two hz
        obtain ⟨u, hu⟩ := resolveUpdate_frame ah s.le init
        rw [hu] at h1 h2 h3
        exact .accept z.1 _ h1 ⟨rfl, rfl, rfl, rfl⟩ h2 h3 (by simp only [said_append, h4]; rfl)
    | connectComplete init adv q =>
      simp only [receive, incomingConnectComplete] at hy
      split at hy
      · rename_i hp
        exact .stray hp.1
      obtain ⟨z, hz, hx⟩ := Res.bind_eq_ok hy
      cases hx
      obtain ⟨h1, -, -, h4⟩ := handleConnection_two hz
      exact .complete z.1 _ h1 ⟨rfl, rfl, rfl, rfl⟩ rfl rfl h4
    | scan sc adv =>
      cases hy
      obtain ⟨u, hu⟩ := resolveUpdate_frame ah s.le sc
      refine .quiet nofun nofun rfl (by simp only [incomingScan, hu]) (by simp only [incomingScan, hu]) (said_nil ?_)
      intro o ho p hp
      subst hp
      simp only [incomingScan, List.mem_append, List.mem_flatMap, legacyScanned, extScanned] at ho
      rcases ho with ho | ⟨e, -, ho⟩
      · split at ho
        · cases List.mem_singleton.1 ho; rfl
        · cases ho
      · split at ho
        · cases List.mem_singleton.1 ho; rfl
        · cases ho
    | scanResponse adv a d =>
      cases hy
      obtain ⟨u, hu⟩ := resolveUpdate_frame ah s.le adv
      simp only [scanResponse]
      split
      · exact .quiet nofun nofun rfl rfl rfl rfl
      split
      · exact .quiet nofun nofun rfl rfl rfl rfl
      · rename_i req _
        obtain ⟨hi, hh⟩ := remember_frame { s with le := resolveUpdate ah s.le adv, pending := mapErase s.pending adv } (.scanResponse adv a d)
        refine .quiet nofun nofun (by simp only [hh]) (by simp only [hh]; simp only [hu]) (by simp only [hh]; simp only [hu]) (said_nil ?_)
        intro o ho p hp
        subst hp
        split at ho
        · simp only [responseReports, List.mem_append] at ho
          rcases ho with ho | ho
          · split at ho <;> simp at ho
          · split at ho <;> simp at ho
        · cases ho
    | link src dst b =>
      simp only [receive, incomingLink] at hy
      split at hy
      · rename_i hf
        cases hy
        refine .calm (fun _ _ _ h => ?_) (by simp) rfl rfl rfl rfl
        cases h
        refine ⟨fun t ht => ?_, fun u v hw => ?_⟩
        · cases b <;> cases ht
        · cases b <;> cases hw
          exact hf
      rename_i k c hf
      split at hy
      · cases hy; exact .quiet nofun nofun rfl rfl rfl rfl
      · split at hy
        · cases hy
        · rename_i hr
          obtain ⟨h0, rfl⟩ := removeConnection_cases hr
          cases hy
          exact .got k c hf rfl rfl rfl rfl
      · cases hy; exact .quiet nofun nofun rfl rfl rfl rfl
  | tick now =>
    simp only [step] at h
    obtain ⟨y, hy, h⟩ := Res.bind_eq_ok h
    cases h
    simp only [tick] at hy
    split at hy
    · cases hy
    · rename_i le out ha
      cases hy
      have hf : ∀ s : State, (scanTimers now s).conns = s.conns := by
        intro s; unfold scanTimers; split <;> rfl
      have hi : (scanning now le).1.initiator = s.le.initiator := by
        have hr : runEnv s.le (.tick now) = .ret (scanning now le).1 out := by simp only [runEnv, ha]
        obtain ⟨m, -, hm, -⟩ := runEnv_tick hr
        simp only [hm]
      refine .still rfl (by simp) (hf _) (by simp only [State.on, hi]) (by simp only [State.pend, hi]) (said_nil ?_)
      intro o ho p hp
      rcases List.mem_append.mp ho with ho | ho
      · obtain ⟨z, -, hz⟩ := List.mem_map.mp ho
        subst hp
        cases z <;> cases hz <;> rfl
      · subst hp
        split at ho <;> simp at ho
  | sendAcl a b c d =>
    simp only [step, handleAcl] at h
    obtain ⟨y, hy, h⟩ := Res.bind_eq_ok h
    cases h
    split at hy
    · cases hy
    split at hy <;> (cases hy; exact .still rfl (by simp) rfl rfl rfl rfl)
  | disconnect a b c =>
    simp only [step, disconnect] at h
    obtain ⟨y, hy, h⟩ := Res.bind_eq_ok h
    cases h
    split at hy
    · cases hy; exact .still rfl (by simp) rfl rfl rfl rfl
    rename_i hf
    split at hy
    · cases hy
    · rename_i hr
      obtain ⟨h0, rfl⟩ := removeConnection_cases hr
      cases hy
      exact .drop _ hf rfl rfl rfl rfl
  | reset =>
    cases h
    refine .reset rfl rfl rfl ?_
    simp only [reset, disconnectAll, said, sent, lwords, List.filterMap_map, List.filterMap_filterMap]
    generalize s.conns = l
    induction l with
    | nil => rfl
    | cons e l ih => simpa [lword] using ih

/-! ### The two together -/

/-- The advertiser has exactly this connection. -/
def HasA (l : Conn.Table LeConn) : Option Tie → Prop
  | none => l = []
  | some t => ∃ k c, l = [(k, c)] ∧ c.own = t.adv ∧ c.address = t.init ∧ c.params = t.params ∧ c.role = .peripheral

/-- The initiator has exactly this connection. -/
def HasB (l : Conn.Table LeConn) : Option Tie → Prop
  | none => l = []
  | some t => ∃ k c, l = [(k, c)] ∧ c.own = t.init ∧ c.address = t.adv ∧ c.params = t.params ∧ c.role = .central

variable {s s' : State} {a b : Option Tie} {pend : Option AddressWithType} {on : Bool} {wA wB w : List LWord}

theorem aOwn {o : Op} (ho : o.own = true) (hc : (∀ rnd po pe ow p, o ≠ .cmd (.createConnection rnd po pe ow p)) ∧ ∀ rnd po ow pe ph p, o ≠ .cmd (.extendedCreateConnection rnd po ow pe ph p))
    (h : TwoStep s s' w o) (ha : HasA s.conns a) (hn : s.on = false) (i : TwoInv a b pend on wA wB) :
    ∃ a', HasA s'.conns a' ∧ s'.on = false ∧ TwoInv a' b pend on wA (wB ++ w) := by
  cases h with
  | calm _ _ h1 h2 h3 h4 => exact ⟨a, by rw [h1]; exact ha, by rw [h2]; exact hn, by rw [h4, List.append_nil]; exact i⟩
  | create hc' =>
    rcases hc' with ⟨_, _, _, _, _, rfl⟩ | ⟨_, _, _, _, _, _, rfl⟩
    · exact absurd rfl (hc.1 _ _ _ _ _)
    · exact absurd rfl (hc.2 _ _ _ _ _ _)
  | cancel h1 h2 h3 h4 => exact ⟨a, by rw [h1]; exact ha, h2, by rw [h4, List.append_nil]; exact i⟩
  | drop c hf h1 h2 h3 h4 =>
    cases a with
    | none => rw [(ha : s.conns = [])] at hf; cases hf
    | some t =>
      obtain ⟨k, c', e, g1, g2, g3, g4⟩ := ha
      rw [e] at hf h1
      simp only [Conn.find] at hf
      split at hf
      · rename_i hk
        cases hf
        refine ⟨none, ?_, by rw [h2]; exact hn, ?_⟩
        · rw [h1, HasA]; simp [Conn.erase, hk]
        · rw [h4, g1, g2]; exact i.aBye
      · cases hf
  | reset h1 h2 h3 h4 =>
    refine ⟨none, h1, h2, ?_⟩
    cases a with
    | none => rw [h4, (ha : s.conns = [])]; simpa using i
    | some t =>
      obtain ⟨k, c', e, g1, g2, g3, g4⟩ := ha
      rw [h4, e]
      simp only [List.map_cons, List.map_nil, g1, g2]
      exact i.aBye
  | _ => cases ho

theorem aGets {rnd : Irk → Address} {now : Nat} {p : Packet} (h : TwoStep s s' w (.receive rnd now p)) (ha : HasA s.conns a) (hn : s.on = false)
    (i : TwoInv a b pend on ((lword p).toList ++ wA) wB) : ∃ a', HasA s'.conns a' ∧ s'.on = false ∧ TwoInv a' b pend on wA (wB ++ w) := by
  cases h with
  | calm ho hr h1 h2 h3 h4 =>
    obtain ⟨g1, g2⟩ := ho _ _ _ rfl
    rw [h4, List.append_nil, h1, h2]
    cases hw : lword p with
    | none => rw [hw] at i; exact ⟨a, ha, hn, i⟩
    | some x =>
      rw [hw] at i
      cases x with
      | ask t => exact ⟨a, ha, hn, i.aRefuses⟩
      | yes t => exact absurd hw (g1 t)
      | bye u v =>
        refine ⟨_, ?_, hn, i.aGetsBye⟩
        have := g2 u v hw
        cases a with
        | none => exact ha
        | some t =>
          obtain ⟨k, c, e, e1, e2, e3, e4⟩ := ha
          rw [e] at this ⊢
          simp only [Conn.firstWith, e1, e2] at this
          split at this
          · cases this
          · rename_i hm
            have : (some t).filter (fun t => !(t.init.address = u && t.adv.address = v)) = some t := by
              simp only [Option.filter]
              rw [if_pos]
              simpa [Classical.or_iff_not_imp_left] using hm
            rw [this]
            exact ⟨k, c, rfl, e1, e2, e3, e4⟩
  | stray => exact absurd List.mem_cons_self (i.noYes _)
  | complete => exact absurd List.mem_cons_self (i.noYes _)
  | ask t h0 ho => rw [hn] at ho; cases ho
  | accept k c h1 hc h2 h3 h4 =>
    obtain ⟨rfl, -⟩ := i.asked
    refine ⟨_, ?_, by rw [h2]; exact hn, by rw [h4]; exact i.aAccepts⟩
    rw [h1, (ha : s.conns = [])]
    exact ⟨k, c, rfl, hc.1, hc.2.1, hc.2.2.1, hc.2.2.2⟩
  | got k c hf h1 h2 h3 h4 =>
    rename_i u v r
    refine ⟨_, ?_, by rw [h2]; exact hn, by rw [h4, List.append_nil]; exact i.aGetsBye⟩
    cases a with
    | none => rw [(ha : s.conns = [])] at hf; cases hf
    | some t =>
      obtain ⟨k, c, e, e1, e2, e3, e4⟩ := ha
      rw [e] at hf h1
      simp only [Conn.firstWith, e1, e2] at hf
      split at hf
      · rename_i hm
        cases hf
        have : (some t).filter (fun t => !(t.init.address = u && t.adv.address = v)) = none := by
          simp only [Option.filter]
          rw [if_neg]
          simpa using hm
        rw [this, h1]
        simp [HasA, Conn.erase]
      · cases hf

theorem bOwn {o : Op} (ho : o.own = true)
    (hc : ((∃ rnd po pe ow p, o = .cmd (.createConnection rnd po pe ow p)) ∨ ∃ rnd po ow pe ph p, o = .cmd (.extendedCreateConnection rnd po ow pe ph p)) →
      s.conns = [] ∧ (∀ t, .ask t ∉ wA) ∧ ∀ t, .yes t ∉ wB) (hr : o = .reset → (∀ t, .ask t ∉ wA) ∧ ∀ t, .yes t ∉ wB)
    (h : TwoStep s s' w o) (hb : HasB s.conns b) (i : TwoInv a b s.pend s.on wA wB) :
    ∃ b', HasB s'.conns b' ∧ TwoInv a b' s'.pend s'.on (wA ++ w) wB := by
  cases h with
  | calm _ _ h1 h2 h3 h4 => exact ⟨b, by rw [h1]; exact hb, by rw [h4, List.append_nil, h2, h3]; exact i⟩
  | create hc' h1 h2 h3 h4 =>
    obtain ⟨g1, g2⟩ := hc (by
      rcases hc' with ⟨_, _, _, _, _, rfl⟩ | ⟨_, _, _, _, _, _, rfl⟩
      · exact .inl ⟨_, _, _, _, _, rfl⟩
      · exact .inr ⟨_, _, _, _, _, _, rfl⟩)
    cases b with
    | some t => obtain ⟨k, c', e, -⟩ := hb; rw [g1] at e; cases e
    | none => exact ⟨none, by rw [h1]; exact hb, by rw [h4, List.append_nil]; exact i.switch (fun _ => rfl) (.inr g2)⟩
  | cancel h1 h2 h3 h4 => exact ⟨b, by rw [h1]; exact hb, by rw [h4, List.append_nil, h2, h3]; exact i.switch nofun (.inl rfl)⟩
  | drop c hf h1 h2 h3 h4 =>
    cases b with
    | none => rw [(hb : s.conns = [])] at hf; cases hf
    | some t =>
      obtain ⟨k, c', e, g1, g2, g3, g4⟩ := hb
      rw [e] at hf h1
      simp only [Conn.find] at hf
      split at hf
      · rename_i hk
        cases hf
        refine ⟨none, ?_, ?_⟩
        · rw [h1, HasB]; simp [Conn.erase, hk]
        · rw [h4, g1, g2, h2, h3]; exact i.bBye _
      · cases hf
  | reset h1 h2 h3 h4 =>
    refine ⟨none, h1, ?_⟩
    cases b with
    | none => rw [h4, (hb : s.conns = [])]; simpa using i.switch (fun _ => rfl) (.inr (hr rfl))
    | some t =>
      obtain ⟨k, c', e, g1, g2, g3, g4⟩ := hb
      rw [h4, e, h3, h2]
      simp only [List.map_cons, List.map_nil, g1, g2]
      have := i.bBye none
      exact this.switch (fun _ => rfl) (.inl rfl)
  | _ => cases ho

theorem bGets {rnd : Irk → Address} {now : Nat} {p : Packet} (h : TwoStep s s' w (.receive rnd now p)) (hb : HasB s.conns b)
    (i : TwoInv a b s.pend s.on wA ((lword p).toList ++ wB)) : ∃ b', HasB s'.conns b' ∧ TwoInv a b' s'.pend s'.on (wA ++ w) wB := by
  cases h with
  | calm ho hr h1 h2 h3 h4 =>
    obtain ⟨g1, g2⟩ := ho _ _ _ rfl
    rw [h4, List.append_nil, h1, h2, h3]
    cases hw : lword p with
    | none => rw [hw] at i; exact ⟨b, hb, i⟩
    | some x =>
      rw [hw] at i
      cases x with
      | ask t => exact absurd List.mem_cons_self (i.noAsk _)
      | yes t => exact absurd hw (g1 t)
      | bye u v =>
        refine ⟨_, ?_, i.bGetsBye⟩
        have := g2 u v hw
        cases b with
        | none => exact hb
        | some t =>
          obtain ⟨k, c, e, e1, e2, e3, e4⟩ := hb
          rw [e] at this ⊢
          simp only [Conn.firstWith, e1, e2] at this
          split at this
          · cases this
          · rename_i hm
            have : (some t).filter (fun t => !(t.adv.address = u && t.init.address = v)) = some t := by
              simp only [Option.filter]
              rw [if_pos]
              simpa [Classical.or_iff_not_imp_left] using hm
            rw [this]
            exact ⟨k, c, rfl, e1, e2, e3, e4⟩
  | stray hp => exact absurd i.bGetsYes.1 hp
  | complete k c h1 hc h2 h3 h4 =>
    obtain ⟨-, rfl, g⟩ := i.bGetsYes
    refine ⟨_, ?_, by rw [h2, h3, h4, List.append_nil]; exact g⟩
    rw [h1, (hb : s.conns = [])]
    exact ⟨k, c, rfl, hc.1, hc.2.1, hc.2.2.1, hc.2.2.2⟩
  | ask t h0 ho hp h1 h2 h3 h4 =>
    rw [h0] at i
    refine ⟨b, by rw [h1]; exact hb, ?_⟩
    rw [hp, ho] at i
    rw [h2, h3, h4, ho]
    exact i.ask t
  | accept => exact absurd List.mem_cons_self (i.noAsk _)
  | got k c hf h1 h2 h3 h4 =>
    rename_i u v r
    refine ⟨_, ?_, by rw [h2, h3, h4, List.append_nil]; exact i.bGetsBye⟩
    cases b with
    | none => rw [(hb : s.conns = [])] at hf; cases hf
    | some t =>
      obtain ⟨k, c, e, e1, e2, e3, e4⟩ := hb
      rw [e] at hf h1
      simp only [Conn.firstWith, e1, e2] at hf
      split at hf
      · rename_i hm
        cases hf
        have : (some t).filter (fun t => !(t.adv.address = u && t.init.address = v)) = none := by
          simp only [Option.filter]
          rw [if_neg]
          simpa using hm
        rw [this, h1]
        simp [HasB, Conn.erase]
      · cases hf

/-- The two devices, as words. -/
def TwoRep (n : Two) : Prop :=
  ∃ a b, HasA n.a.conns a ∧ HasB n.b.conns b ∧ n.a.on = false ∧ TwoInv a b n.b.pend n.b.on (lwords n.toA) (lwords n.toB)

theorem lwords_cons (p : Packet) (q : List Packet) : lwords (p :: q) = (lword p).toList ++ lwords q := by
  simp only [lwords, List.filterMap_cons]
  cases lword p <;> rfl

theorem twoRep_start (x y : Option Address) : TwoRep { a := initial x, b := initial y } :=
  ⟨none, none, rfl, rfl, rfl, TwoInv.start⟩

theorem twoRep_step {ah : Hash} {ca cb : Config} {n n' : Two} {x : TwoAct} (hi : TwoRep n) (hp : PatientTwo n x) (h : twoStep ah ca cb n x = some n') : TwoRep n' := by
  obtain ⟨a, b, ha, hb, hn, i⟩ := hi
  cases x with
  | atA o =>
    simp only [twoStep] at h
    split at h
    · rename_i ho
      split at h
      · rename_i x hx
        cases h
        obtain ⟨a', g1, g2, g3⟩ := aOwn ho ⟨fun _ _ _ _ _ h => by subst h; exact hp, fun _ _ _ _ _ _ h => by subst h; exact hp⟩ (step_two hx) ha hn i
        exact ⟨a', b, g1, hb, g2, by simpa only [lwords_append, said] using g3⟩
      · cases h
    · cases h
  | atB o =>
    simp only [twoStep] at h
    split at h
    · rename_i ho
      split at h
      · rename_i x hx
        cases h
        obtain ⟨b', g1, g2⟩ := bOwn ho (by
          rintro (⟨_, _, _, _, _, rfl⟩ | ⟨_, _, _, _, _, _, rfl⟩)
          · exact ⟨hp.1, hp.2⟩
          · exact ⟨hp.1, hp.2⟩) (by rintro rfl; exact hp) (step_two hx) hb i
        exact ⟨a, b', ha, g1, hn, by simpa only [lwords_append, said] using g2⟩
      · cases h
    · cases h
  | arriveA rnd now =>
    simp only [twoStep] at h
    split at h
    · cases h
    · rename_i p q hq
      rw [hq, lwords_cons] at i
      split at h
      · rename_i x hx
        cases h
        obtain ⟨a', g1, g2, g3⟩ := aGets (step_two hx) ha hn i
        exact ⟨a', b, g1, hb, g2, by simpa only [lwords_append, said] using g3⟩
      · cases h
  | arriveB rnd now =>
    simp only [twoStep] at h
    split at h
    · cases h
    · rename_i p q hq
      rw [hq, lwords_cons] at i
      split at h
      · rename_i x hx
        cases h
        obtain ⟨b', g1, g2⟩ := bGets (step_two hx) hb i
        exact ⟨a, b', ha, g1, hn, by simpa only [lwords_append, said] using g2⟩
      · cases h

end Verif.Ll
