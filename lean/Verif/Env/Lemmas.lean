import Verif.Env.Spec
import Verif.Phy.Props
/-! # Histories of the desktop program, step by step -/

namespace Verif.Env
open Verif.Phy (Config PhyType Op)

theorem run_append (cfg : Config) (s : Sys) (as bs : List Act) : run cfg s (as ++ bs) =
    match run cfg s as with
    | .ok s' cs => (match run cfg s' bs with
      | .ok s'' ds => .ok s'' (cs ++ ds)
      | r => r)
    | r => r := by
  induction as generalizing s with
  | nil =>
    simp only [List.nil_append, run]
    cases run cfg s bs <;> rfl
  | cons a as ih =>
    simp only [List.cons_append, run]
    cases step cfg s a with
    | ok w1 c =>
      simp only [ih w1]
      cases run cfg w1 as with
      | ok w2 cs =>
        simp only
        cases run cfg w2 bs with
        | ok w3 ds => simp
        | _ => rfl
      | _ => rfl
    | _ => rfl

theorem run_append_ok {cfg : Config} {s s' : Sys} {as bs : List Act} {cs : List Out}
    (h : run cfg s (as ++ bs) = .ok s' cs) :
    ∃ s1 c1 c2, run cfg s as = .ok s1 c1 ∧ run cfg s1 bs = .ok s' c2 ∧ cs = c1 ++ c2 := by
  rw [run_append] at h
  cases h1 : run cfg s as with
  | ok w1 c1 =>
    rw [h1] at h
    simp only at h
    cases h2 : run cfg w1 bs with
    | ok w2 c2 =>
      rw [h2] at h
      cases h
      exact ⟨w1, c1, c2, rfl, h2, rfl⟩
    | _ => rw [h2] at h; cases h
  | _ => rw [h1] at h; cases h

theorem run_cons_ok {cfg : Config} {s s' : Sys} {a : Act} {as : List Act} {cs : List Out}
    (h : run cfg s (a :: as) = .ok s' cs) :
    ∃ s1 c1 c2, step cfg s a = .ok s1 c1 ∧ run cfg s1 as = .ok s' c2 ∧ cs = c1 ++ c2 := by
  simp only [run] at h
  cases h1 : step cfg s a with
  | ok w1 c1 =>
    rw [h1] at h
    simp only at h
    cases h2 : run cfg w1 as with
    | ok w2 c2 =>
      rw [h2] at h
      cases h
      exact ⟨w1, c1, c2, rfl, h2, rfl⟩
    | _ => rw [h2] at h; cases h
  | _ => rw [h1] at h; cases h

/-- An invariant of the state and of what was observed so far, for histories of actions with a property. -/
theorem invariant {cfg : Config} {P : Nat → Sys → List Out → Prop} {Q : Act → Prop}
    (hs : ∀ k s outs a s' o, k + 1 < 2 ^ 30 → Q a → P k s outs → step cfg s a = .ok s' o → P (k + 1) s' (outs ++ o)) :
    ∀ (as : List Act) (k : Nat) (s : Sys) (outs : List Out) (s' : Sys) (o : List Out), k + as.length < 2 ^ 30 →
      (∀ a ∈ as, Q a) → P k s outs → run cfg s as = .ok s' o → P (k + as.length) s' (outs ++ o) := by
  intro as
  induction as with
  | nil =>
    intro k s outs s' o _ _ h hr
    cases hr
    simpa using h
  | cons a as ih =>
    intro k s outs s' o hk hq h hr
    obtain ⟨s1, c1, c2, h1, h2, rfl⟩ := run_cons_ok hr
    simp only [List.length_cons] at hk ⊢
    rw [← List.append_assoc, show k + (as.length + 1) = k + 1 + as.length by omega]
    exact ih (k + 1) s1 _ s' c2 (by omega) (fun b hb => hq b (List.mem_cons_of_mem _ hb))
      (hs k s outs a s1 c1 (by omega) (hq a List.mem_cons_self) h h1) h2

/-- The works with one added. -/
def put (s : Sys) (w : Work) : Thread → Sys
  | .main => { s with main := some w }
  | .watcher => { s with watcher := some w }
  | .tasks => { s with task := some w }

theorem begin_ok {s s' : Sys} {t : Thread} {w : Work} {o out : List Out} (h : begin_ s t w o = .ok s' out) :
    s.works.any (clash s w) = false ∧ s' = put s w t ∧ out = o := by
  unfold begin_ at h
  split at h
  · cases h
  · rename_i hc
    refine ⟨by simpa using hc, ?_⟩
    cases t <;> cases h <;> exact ⟨rfl, rfl⟩

/-- The clock after a command. -/
def clock : Cmd → Nat × Bool → Nat × Bool
  | .startTimer, (n, _) => (n + 1, true)
  | .stopTimer, (n, b) => (if b then n - 1 else n, false)
  | .reset, (n, b) => (if b then n - 1 else n, false)
  | _, x => x

/-- One case per step that succeeds. -/
inductive Did (cfg : Config) (s : Sys) : Act → Sys → List Out → Prop
  | connect (p) : Did cfg s (.connect p) { s with waiting := s.waiting ++ [(p, s.clients)], clients := s.clients + 1 } []
  | leave (c) (hc : c < s.clients) (hg : c ∉ s.gone) : Did cfg s (.leave c) { s with gone := s.gone ++ [c] } []
  | boot (b bs) (hm : s.main = none) (hb : s.boot = b :: bs)
    (hw : ∀ w ∈ s.works, clash s (.boot b) w = false) : Did cfg s .boot { s with boot := bs, main := some (.boot b) } []
  | accept (p c) (hw0 : s.watcher = none) (hp : p ∈ s.listening) (hf : s.waiting.find? (fun e => e.1 = p) = some (p, c))
    (hw : ∀ w ∈ s.works, clash s (.accept p c) w = false) :
    Did cfg s (.accept p) { s with waiting := s.waiting.erase (p, c), listening := s.listening.erase p, watcher := some (.accept p c) } [.accepted p c]
  | read (c k) (hw0 : s.watcher = none) (hc : c ∈ s.reading) : Did cfg s (.read c (some k)) { s with tasks := s.tasks ++ [.command c k] } []
  | shut (c) (hw0 : s.watcher = none) (hc : c ∈ s.reading) : Did cfg s (.read c none) { s with testOpen := false, reading := s.reading.erase c } []
  | task (t ts) (ht0 : s.task = none) (ht : s.tasks = t :: ts) (hw : ∀ w ∈ s.works, clash s (.task t) w = false) :
    Did cfg s .task { s with tasks := ts, task := some (.task t) } []
  | tick (l) (ht0 : s.task = none) (ht : 0 < s.ticking) (hd : ∀ d ∈ l, deaf s d = true) (hm : mustNotice s l = true)
    (hw : ∀ w ∈ s.works, clash s (.tick l) w = false) : Did cfg s (.tick l) { s with task := some (.tick l) } []
  | listened (t p) (hd : s.doing t = some (.boot (.listen p))) :
    Did cfg s (.finish t) { free s t with listening := s.listening ++ [p] } []
  | booted (t k m ts n b) (hd : s.doing t = some (.boot (.command k))) (hm : Phy.run cfg s.model (k.ops s.model) = some m)
    (hts : ts = s.tasks ∨ (k = .reset ∧ ts = s.tasks ++ [.clear]))
    (hn : (n, b) = clock k (s.ticking, s.timer)) :
    Did cfg s (.finish t) { free s t with model := m, tasks := ts, ticking := n, timer := b } (answer s none)
  | commanded (t c k m ts n b) (hk : k ≠ .endSimulation) (hd : s.doing t = some (.task (.command c k)))
    (hm : Phy.run cfg s.model (k.ops s.model) = some m) (hts : ts = s.tasks ∨ (k = .reset ∧ ts = s.tasks ++ [.clear]))
    (hn : (n, b) = clock k (s.ticking, s.timer)) :
    Did cfg s (.finish t) { free s t with model := m, tasks := ts, ticking := n, timer := b } (answer s (some c))
  | sniffed (t m) (hd : s.doing t = some (.boot .sniffer)) (hm : newLinkDevice cfg s.model .brEdr = some m) :
    Did cfg s (.finish t) { free s t with model := m } []
  | controller (t c m) (hd : s.doing t = some (.task (.hci c))) (hm : newController cfg s.model = some m) :
    Did cfg s (.finish t) { free s t with model := m, socks := s.socks ++ [⟨s.model.nextDev, c, true⟩] } [.controller c s.model.nextDev]
  | closed (t d) (hd : s.doing t = some (.task (.closed d))) (hp : s.model.hasDev d = true) :
    Did cfg s (.finish t) { free s t with model := Phy.removeDevice s.model d, tasks := s.tasks.filter (· ≠ .closed d) } []
  | already (t d) (hd : s.doing t = some (.task (.closed d))) (hp : s.model.hasDev d = false) : Did cfg s (.finish t) (free s t) []
  | ended (t c) (hd : s.doing t = some (.task (.command c .endSimulation))) (he : s.ended = false) :
    Did cfg s (.finish t) { free s t with ended := true } [.ended]
  | cleared (t m) (hd : s.doing t = some (.task .clear)) (hm : Phy.run cfg s.model [.reset] = some m) :
    Did cfg s (.finish t) { free s t with model := m } []
  | admitted (t i c) (hd : s.doing t = some (.accept (.hci i) c)) :
    Did cfg s (.finish t) { free s t with tasks := s.tasks ++ [.hci c], listening := s.listening ++ [.hci i] } []
  | joined (t p c u m) (hd : s.doing t = some (.accept p c)) (hp : (p = .link ∧ u = .brEdr) ∨ (p = .ble ∧ u = .lowEnergy))
    (hm : newLinkDevice cfg s.model u = some m) :
    Did cfg s (.finish t) { free s t with model := m, socks := s.socks ++ [⟨s.model.nextDev, c, false⟩], listening := s.listening ++ [p] }
      [.joined c s.model.nextDev u]
  | refused (t c) (hd : s.doing t = some (.accept .test c)) (ho : s.testOpen = true) :
    Did cfg s (.finish t) { free s t with listening := s.listening ++ [.test] } [.refused c]
  | greeted (t c) (hd : s.doing t = some (.accept .test c)) (ho : s.testOpen = false) :
    Did cfg s (.finish t) { free s t with testOpen := true, answers := some c, reading := s.reading ++ [c], listening := s.listening ++ [.test] } [.greeted c]
  | ticked (t l) (hd : s.doing t = some (.tick l)) : Did cfg s (.finish t) { free s t with tasks := s.tasks ++ l.map .closed } []

theorem noClash {s : Sys} {w : Work} (h : s.works.any (clash s w) = false) : ∀ v ∈ s.works, clash s w v = false := by
  intro v hv
  simpa using List.any_eq_false.mp h v hv

theorem command_ok {cfg : Config} {s s' : Sys} {o : Option Client} {k : Cmd} {out : List Out}
    (h : command cfg s o k = .ok s' out) : ∃ m ts n b, Phy.run cfg s.model (k.ops s.model) = some m ∧
      (ts = s.tasks ∨ (k = .reset ∧ ts = s.tasks ++ [.clear])) ∧ (n, b) = clock k (s.ticking, s.timer) ∧
      s' = { s with model := m, tasks := ts, ticking := n, timer := b } ∧ out = answer s o := by
  unfold command at h
  split at h
  · cases h
  · rename_i m hm
    refine ⟨m, s'.tasks, s'.ticking, s'.timer, hm, ?_⟩
    cases k <;> simp only [startTimer, stopTimer, answer] at h ⊢ <;> (try split at h) <;> cases h <;> simp_all [clock]

theorem did {cfg : Config} {s s' : Sys} {a : Act} {out : List Out} (h : step cfg s a = .ok s' out) : Did cfg s a s' out := by
  cases a with
  | connect p => cases h; exact .connect p
  | leave c =>
    simp only [step] at h
    split at h
    · rename_i hc; cases h; exact .leave c hc.1 hc.2
    · cases h
  | boot =>
    simp only [step] at h
    split at h
    · rename_i b bs hm hb
      obtain ⟨h1, rfl, rfl⟩ := begin_ok h
      exact .boot b bs hm hb (noClash h1)
    · cases h
  | accept p =>
    simp only [step] at h
    split at h
    · rename_i hp
      split at h
      · rename_i e he
        obtain ⟨h1, rfl, rfl⟩ := begin_ok h
        have hpe := List.find?_some he
        obtain ⟨p', c⟩ := e
        simp only [decide_eq_true_eq] at hpe
        subst hpe
        exact .accept p' c hp.1 hp.2 he (noClash h1)
      · cases h
    · cases h
  | read c k =>
    simp only [step] at h
    split at h
    · rename_i hc
      cases k with
      | some k => cases h; exact .read c k hc.1 hc.2
      | none => cases h; exact .shut c hc.1 hc.2
    · cases h
  | task =>
    simp only [step] at h
    split at h
    · rename_i t ts hm hb
      obtain ⟨h1, rfl, rfl⟩ := begin_ok h
      exact .task t ts hm hb (noClash h1)
    · cases h
  | tick l =>
    simp only [step] at h
    split at h
    · rename_i hc
      obtain ⟨h1, rfl, rfl⟩ := begin_ok h
      exact .tick l hc.1 hc.2.1 (by simpa using hc.2.2.1) hc.2.2.2 (noClash h1)
    · cases h
  | finish t =>
    simp only [step] at h
    split at h
    · rename_i w hd
      have hm : (free s t).model = s.model := by cases t <;> rfl
      have hts : (free s t).tasks = s.tasks := by cases t <;> rfl
      have hti : (free s t).ticking = s.ticking := by cases t <;> rfl
      have htm : (free s t).timer = s.timer := by cases t <;> rfl
      have hl : (free s t).listening = s.listening := by cases t <;> rfl
      have hs : (free s t).socks = s.socks := by cases t <;> rfl
      have hr : (free s t).reading = s.reading := by cases t <;> rfl
      have he : (free s t).ended = s.ended := by cases t <;> rfl
      have ho : (free s t).testOpen = s.testOpen := by cases t <;> rfl
      have ha : ∀ o, answer (free s t) o = answer s o := by intro o; cases t <;> rfl
      cases w with
      | boot b =>
        cases b with
        | listen p => simp only [effect, hl] at h; cases h; exact .listened t p hd
        | command k =>
          simp only [effect] at h
          obtain ⟨m, ts, n, b, h1, h2, h3, rfl, rfl⟩ := command_ok h
          rw [hti, htm] at h3
          rw [ha]
          rw [hm] at h1
          rw [hts] at h2
          exact .booted t k m ts n b hd h1 h2 h3
        | sniffer =>
          simp only [effect, hm] at h
          split at h
          · cases h
          · rename_i m h1; cases h; exact .sniffed t m hd h1
      | accept p c =>
        simp only [effect] at h
        cases p with
        | hci i =>
          simp only [accept, hts, hl] at h
          cases h
          exact .admitted t i c hd
        | link =>
          simp only [accept, acceptLink, hm, hs, hl] at h
          cases h1 : newLinkDevice cfg s.model .brEdr with
          | none => rw [h1] at h; cases h
          | some m => rw [h1] at h; cases h; exact .joined t .link c _ m hd (.inl ⟨rfl, rfl⟩) h1
        | ble =>
          simp only [accept, acceptLink, hm, hs, hl] at h
          cases h1 : newLinkDevice cfg s.model .lowEnergy with
          | none => rw [h1] at h; cases h
          | some m => rw [h1] at h; cases h; exact .joined t .ble c _ m hd (.inr ⟨rfl, rfl⟩) h1
        | test =>
          simp only [accept, ho, hl, hr] at h
          cases h1 : s.testOpen with
          | true => rw [h1] at h; simp only [if_true] at h; rw [hl] at h; cases h; exact .refused t c hd h1
          | false => rw [h1] at h; simp at h; obtain ⟨rfl, rfl⟩ := h; exact .greeted t c hd h1
      | task k =>
        simp only [effect] at h
        cases k with
        | hci c =>
          simp only [runTask, hm, hs] at h
          split at h
          · cases h
          · rename_i m h1; cases h; exact .controller t c m hd h1
        | closed d =>
          simp only [runTask, hm, hts] at h
          split at h
          · cases h; exact .closed t d hd ‹_›
          · rename_i hn; cases h; exact .already t d hd (Bool.eq_false_iff.mpr hn)
        | clear =>
          simp only [runTask, hm] at h
          split at h
          · cases h
          · rename_i m h1; cases h; exact .cleared t m hd h1
        | command c k =>
          by_cases hk : k = .endSimulation
          · subst hk
            simp only [runTask, he] at h
            split at h
            · cases h
            · rename_i hn; cases h; exact .ended t c hd (Bool.eq_false_iff.mpr hn)
          · have : runTask cfg (free s t) (.command c k) = command cfg (free s t) (some c) k := by
              cases k <;> first | rfl | exact absurd rfl hk
            rw [this] at h
            obtain ⟨m, ts, n, b, h1, h2, h3, rfl, rfl⟩ := command_ok h
            rw [hti, htm] at h3
            rw [ha]
            rw [hm] at h1
            rw [hts] at h2
            exact .commanded t c k m ts n b hk hd h1 h2 h3
      | tick l => simp only [effect, hts] at h; cases h; exact .ticked t l hd
    · cases h

end Verif.Env
