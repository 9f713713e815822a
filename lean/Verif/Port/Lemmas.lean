import Verif.Port.Spec
import Verif.H4.Props
import Verif.Pcap.Props
/-!
# Lemmas about the HCI port
-/
namespace Verif.Port

open H4 (Kind Parser)

variable {σ : Type}

theorem fromHost_append (a b : List (Dir × Kind × Bytes)) : fromHost (a ++ b) = fromHost a ++ fromHost b := by
  simp [fromHost]

theorem toHost_append (a b : List (Dir × Kind × Bytes)) : toHost (a ++ b) = toHost a ++ toHost b := by
  simp [toHost]

/-! ### One step after the other -/

theorem note_some {net : Net} {s s' : Dev σ} {d k p} (h : s.note net d k p = some s') :
    s'.log = s.log ++ [(d, k, p)] ∧ s'.ctl = s.ctl ∧ s'.parser = s.parser ∧ s'.up = s.up ∧ s'.wire = s.wire
    ∧ s'.closes = s.closes ∧ s'.gone = s.gone := by
  simp only [Dev.note] at h
  split at h
  · cases h; simp
  · split at h
    · cases h
    · cases h; simp

theorem put_same (net : Net) (s : Dev σ) (k p) :
    (s.put net k p).log = s.log ∧ (s.put net k p).ctl = s.ctl ∧ (s.put net k p).parser = s.parser ∧ (s.put net k p).up = s.up
    ∧ (s.put net k p).closes = s.closes ∧ (s.put net k p).gone = s.gone ∧ (s.put net k p).trace = s.trace
    ∧ (s.up = false → (s.put net k p).wire = s.wire) := by
  simp only [Dev.put]
  split
  · rename_i h
    simp only [Bool.and_eq_true] at h
    simp [h.1]
  · simp

/-- What sending does not change, and what it adds. -/
theorem send_some {net : Net} : ∀ (ms : List Msg) {s s' : Dev σ}, s.send net ms = some s' →
    s'.log = s.log ++ ms.map (fun m => (Dir.controllerToHost, m.1, m.2)) ∧ s'.ctl = s.ctl ∧ s'.parser = s.parser ∧ s'.up = s.up
    ∧ s'.closes = s.closes ∧ s'.gone = s.gone ∧ (s.up = false → s'.wire = s.wire) := by
  intro ms
  induction ms with
  | nil => intro s s' h; cases h; simp
  | cons m ms ih =>
    obtain ⟨k, p⟩ := m
    intro s s' h
    simp only [Dev.send] at h
    split at h
    · cases h
    · rename_i t ht
      obtain ⟨a1, a2, a3, a4, a5, a6, a7⟩ := note_some ht
      obtain ⟨b1, b2, b3, b4, b5, b6, b7, b8⟩ := put_same net t k p
      obtain ⟨c1, c2, c3, c4, c5, c6, c7⟩ := ih h
      refine ⟨by simp [c1, b1, a1], by rw [c2, b2, a2], by rw [c3, b3, a3], by rw [c4, b4, a4], by rw [c5, b5, a6],
        by rw [c6, b6, a7], ?_⟩
      intro hu
      rw [c7 (by rw [b4, a4, hu]), b8 (by rw [a4, hu]), a5]

theorem after_some {net : Net} {s s' : Dev σ} {r} (h : s.after net r = some s') : ∃ c ms, r = some (c, ms)
    ∧ s'.log = s.log ++ ms.map (fun m => (Dir.controllerToHost, m.1, m.2)) ∧ s'.ctl = c ∧ s'.parser = s.parser ∧ s'.up = s.up
    ∧ s'.closes = s.closes ∧ s'.gone = s.gone ∧ (s.up = false → s'.wire = s.wire) := by
  cases r with
  | none => cases h
  | some r =>
    obtain ⟨c, ms⟩ := r
    exact ⟨c, ms, rfl, send_some ms h⟩

theorem fromHost_sent (ms : List Msg) : fromHost (ms.map (fun m => (Dir.controllerToHost, m.1, m.2))) = [] := by
  induction ms with
  | nil => rfl
  | cons m ms ih => simpa [fromHost] using ih

theorem toHost_sent (ms : List Msg) : toHost (ms.map (fun m => (Dir.controllerToHost, m.1, m.2))) = ms := by
  induction ms with
  | nil => rfl
  | cons m ms ih => simpa [toHost] using ih

theorem deliver_some {net : Net} {ctl : Ctl σ} : ∀ (ev : List Msg) {s s' : Dev σ}, s.deliver net ctl ev = some s' →
    fromHost s'.log = fromHost s.log ++ ev ∧ s'.parser = s.parser ∧ s'.up = s.up ∧ s'.closes = s.closes ∧ s'.gone = s.gone
    ∧ (s.up = false → s'.wire = s.wire) ∧ ∀ e ∈ ev, e.1 ≠ .event := by
  intro ev
  induction ev with
  | nil => intro s s' h; cases h; simp
  | cons m ms ih =>
    obtain ⟨k, p⟩ := m
    intro s s' h
    simp only [Dev.deliver] at h
    split at h
    · cases h
    · rename_i hk
      split at h
      · cases h
      · rename_i t ht
        split at h
        · cases h
        · rename_i u hu
          obtain ⟨a1, a2, a3, a4, a5, a6, a7⟩ := note_some ht
          obtain ⟨c, ms', -, b1, b2, b3, b4, b5, b6, b7⟩ := after_some hu
          obtain ⟨c1, c2, c3, c4, c5, c6, c7⟩ := ih h
          refine ⟨?_, by rw [c2, b3, a3], by rw [c3, b4, a4], by rw [c4, b5, a6], by rw [c5, b6, a7], ?_, ?_⟩
          · rw [c1, b1, fromHost_append, fromHost_sent, a1, fromHost_append]
            simp [fromHost]
          · intro hu'
            rw [c6 (by rw [b4, a4, hu']), b7 (by rw [a4, hu']), a5]
          · intro e he
            rcases List.mem_cons.mp he with rfl | he
            · exact hk
            · exact c7 e he

theorem close_some {net : Net} {ctl : Ctl σ} {s s' : Dev σ} (h : s.close net ctl = some s') :
    fromHost s'.log = fromHost s.log ∧ s'.parser = s.parser ∧ s'.up = false ∧ s'.closes = s.closes + 1 ∧ s'.gone = s.gone
    ∧ s'.wire = s.wire := by
  simp only [Dev.close] at h
  split at h
  · cases h
  · rename_i t ht
    cases h
    obtain ⟨c, ms', -, b1, b2, b3, b4, b5, b6, b7⟩ := after_some ht
    refine ⟨?_, b3, b4, by rw [b5], b6, b7 rfl⟩
    rw [b1, fromHost_append, fromHost_sent]; simp

/-- What is read is what the parser makes of it. -/
theorem read_some {net : Net} {ctl : Ctl σ} (stop : Stop) : ∀ (reads : List Bytes) {s s' : Dev σ}, s.read net ctl reads stop = some s' →
    (∃ ev, H4.feed s.parser (bringing reads) = .done true s'.parser ev ∧ fromHost s'.log = fromHost s.log ++ ev
      ∧ ∀ e ∈ ev, e.1 ≠ .event)
    ∧ s'.gone = s.gone
    ∧ (s'.up = s.up ∧ s'.closes = s.closes ∨ s'.up = false ∧ s'.closes = s.closes + 1) := by
  intro reads
  induction reads with
  | nil =>
    intro s s' h
    cases stop with
    | again =>
      cases h
      exact ⟨⟨[], rfl, by simp, by simp⟩, rfl, .inl ⟨rfl, rfl⟩⟩
    | reset =>
      obtain ⟨a, b, c, d, e, f⟩ := close_some h
      refine ⟨⟨[], ?_, by rw [a]; simp, by simp⟩, e, .inr ⟨c, d⟩⟩
      rw [b]; rfl
    | fail => cases h
  | cons c cs ih =>
    intro s s' h
    simp only [Dev.read] at h
    split at h
    · rename_i hc
      obtain ⟨a, b, c', d, e, f⟩ := close_some h
      subst hc
      refine ⟨⟨[], ?_, by rw [a]; simp, by simp⟩, e, .inr ⟨c', d⟩⟩
      rw [b]; rfl
    · rename_i hc
      split at h
      · rename_i r p ev hcons
        split at h
        · cases h
        · rename_i t ht
          obtain ⟨c1, c2, c3, c4, c5, c6, c7⟩ := deliver_some ev ht
          obtain ⟨⟨ev', d1, d2, d3⟩, d4, d5⟩ := ih h
          refine ⟨⟨ev ++ ev', ?_, ?_, ?_⟩, by rw [d4, c5], ?_⟩
          · have hb : bringing (c :: cs) = c :: bringing cs := by
              simp [bringing, hc]
            rw [hb]
            simp only [H4.feed, hcons]
            have : p = t.parser := c2.symm
            rw [this, d1]
          · rw [d2, c1]; simp
          · intro e he
            rcases List.mem_append.mp he with he | he
            · exact c7 e he
            · exact d3 e he
          · rcases d5 with ⟨e1, e2⟩ | ⟨e1, e2⟩
            · exact .inl ⟨by rw [e1, c3], by rw [e2, c4]⟩
            · exact .inr ⟨e1, by rw [e2, c4]⟩
      · cases h

/-- One step of a device. -/
theorem step_some {net : Net} {ctl : Ctl σ} {s s' : Dev σ} {op : Op σ} (h : s.step net ctl op = some s') :
    (∃ ev, H4.feed s.parser (heardNow s op) = .done true s'.parser ev ∧ fromHost s'.log = fromHost s.log ++ ev)
    ∧ (s.up = false → s'.up = false ∧ s'.wire = s.wire ∧ fromHost s'.log = fromHost s.log)
    ∧ (s'.closes = 0 → s.closes = 0)
    ∧ ((s.up = false ↔ s.closes ≠ 0) → (s'.up = false ↔ s'.closes ≠ 0))
    ∧ (s.gone = true → s' = s) := by
  simp only [Dev.step] at h
  split at h
  · rename_i hg
    cases h
    refine ⟨⟨[], ?_, by simp⟩, fun h => ⟨h, rfl, rfl⟩, id, id, fun _ => rfl⟩
    cases op <;> simp [heardNow, hg, H4.feed]
  · rename_i hg
    have hg' : s.gone = false := by simpa using hg
    cases op with
    | tick reads stop =>
      simp only at h
      cases hu : s.up with
      | true =>
        simp only [hu, if_true] at h
        split at h
        · cases h
        · rename_i t ht
          obtain ⟨⟨ev, a1, a2, a3⟩, a4, a5⟩ := read_some stop reads ht
          obtain ⟨c, ms, -, b1, b2, b3, b4, b5, b6, b7⟩ := after_some h
          refine ⟨⟨ev, ?_, ?_⟩, by simp, ?_, ?_, by simp [hg']⟩
          · simp only [heardNow, hg', hu, Bool.not_false, Bool.and_self, if_true]
            rw [a1, b3]
          · rw [b1, fromHost_append, fromHost_sent, a2]; simp
          · intro h0; rw [b5] at h0
            rcases a5 with ⟨-, e⟩ | ⟨-, e⟩ <;> omega
          · intro hi
            have : s.closes = 0 := by
              rcases Nat.eq_zero_or_pos s.closes with h0 | h0
              · exact h0
              · simp at hi; omega
            rw [b4, b5]
            rcases a5 with ⟨e1, e2⟩ | ⟨e1, e2⟩
            · simp [e1, e2, hu, this]
            · simp [e1, e2]
      | false =>
        simp only [hu, Bool.false_eq_true, if_false] at h
        split at h
        · cases h
        · rename_i t ht
          obtain ⟨a1, a2, a3, a4, a5, a6⟩ := close_some ht
          obtain ⟨c, ms, -, b1, b2, b3, b4, b5, b6, b7⟩ := after_some h
          have hl : fromHost s'.log = fromHost s.log := by rw [b1, fromHost_append, fromHost_sent, a1]; simp
          refine ⟨⟨[], ?_, by rw [hl]; simp⟩, ?_, ?_, ?_, by simp [hg']⟩
          · simp only [heardNow, hu, Bool.and_false, Bool.false_eq_true, if_false]
            rw [b3, a2]; rfl
          · intro _; exact ⟨by rw [b4, a3], by rw [b7 a3, a6], hl⟩
          · intro h0; rw [b5, a4] at h0; omega
          · intro _; rw [b4, b5, a3, a4]; simp
    | work next ms =>
      simp only at h
      obtain ⟨c, ms', -, b1, b2, b3, b4, b5, b6, b7⟩ := after_some h
      have hl : fromHost s'.log = fromHost s.log := by rw [b1, fromHost_append, fromHost_sent]; simp
      refine ⟨⟨[], ?_, by rw [hl]; simp⟩, fun hu => ⟨by rw [b4, hu], b7 hu, hl⟩, by rw [b5]; exact id, by rw [b4, b5]; exact id,
        by simp [hg']⟩
      rw [b3]; rfl
    | remove =>
      simp only at h
      split at h
      · cases h
        refine ⟨⟨[], ?_, by simp⟩, fun hu => ⟨hu, rfl, rfl⟩, id, id, fun _ => rfl⟩
        rfl
      · cases h
        refine ⟨⟨[], ?_, by simp⟩, fun hu => ⟨hu, rfl, rfl⟩, id, id, by simp [hg']⟩
        rfl

theorem run_cons {net : Net} {ctl : Ctl σ} {s s' : Dev σ} {op ops} (h : s.run net ctl (op :: ops) = some s') :
    ∃ t, s.step net ctl op = some t ∧ t.run net ctl ops = some s' := by
  simp only [Dev.run] at h
  split at h
  · cases h
  · rename_i t ht
    exact ⟨t, ht, h⟩

/-- What the controller has handled is what the parser makes of what was read. -/
theorem run_heard {net : Net} {ctl : Ctl σ} : ∀ (ops : List (Op σ)) {s s' : Dev σ}, s.run net ctl ops = some s' →
    ∃ ev, H4.feed s.parser (heard net ctl s ops) = .done true s'.parser ev ∧ fromHost s'.log = fromHost s.log ++ ev := by
  intro ops
  induction ops with
  | nil => intro s s' h; cases h; exact ⟨[], rfl, by simp⟩
  | cons op ops ih =>
    intro s s' h
    obtain ⟨t, h1, h2⟩ := run_cons h
    obtain ⟨⟨ev, a1, a2⟩, -⟩ := step_some h1
    obtain ⟨ev', b1, b2⟩ := ih h2
    refine ⟨ev ++ ev', ?_, by rw [b2, a2]; simp⟩
    simp only [heard, h1]
    rw [H4.feed_append]
    rw [a1]
    simp only [H4.Outcome.andThen, b1]

/-! ### Invariants -/

/-- What every elementary action keeps. -/
structure Kept (net : Net) (P : Dev σ → Prop) : Prop where
  recv : ∀ s s' k p, s.note net .hostToController k p = some s' → P s → P s'
  send : ∀ s s' k p, s.note net .controllerToHost k p = some s' → P s → P (s'.put net k p)
  rest : ∀ (s : Dev σ) ctl parser closes gone, P s →
    P { s with ctl := ctl, parser := parser, closes := closes, gone := gone }
  down : ∀ s : Dev σ, P s → P { s with up := false }

section
variable {net : Net} {ctl : Ctl σ} {P : Dev σ → Prop}

theorem Kept.sends (K : Kept net P) : ∀ (ms : List Msg) {s s' : Dev σ}, s.send net ms = some s' → P s → P s' := by
  intro ms
  induction ms with
  | nil => intro s s' h hp; cases h; exact hp
  | cons m ms ih =>
    obtain ⟨k, p⟩ := m
    intro s s' h hp
    simp only [Dev.send] at h
    split at h
    · cases h
    · rename_i t ht
      exact ih h (K.send _ _ _ _ ht hp)

theorem Kept.after (K : Kept net P) {s s' : Dev σ} {r} (h : s.after net r = some s') (hp : P s) : P s' := by
  cases r with
  | none => cases h
  | some r => exact K.sends r.2 h (K.rest s r.1 s.parser s.closes s.gone hp)

theorem Kept.deliver (K : Kept net P) : ∀ (ev : List Msg) {s s' : Dev σ}, s.deliver net ctl ev = some s' → P s → P s' := by
  intro ev
  induction ev with
  | nil => intro s s' h hp; cases h; exact hp
  | cons m ms ih =>
    obtain ⟨k, p⟩ := m
    intro s s' h hp
    simp only [Dev.deliver] at h
    split at h
    · cases h
    · split at h
      · cases h
      · rename_i t ht
        split at h
        · cases h
        · rename_i u hu
          exact ih h (K.after hu (K.recv _ _ _ _ ht hp))

theorem Kept.close (K : Kept net P) {s s' : Dev σ} (h : s.close net ctl = some s') (hp : P s) : P s' := by
  simp only [Dev.close] at h
  split at h
  · cases h
  · rename_i t ht
    cases h
    exact K.rest t t.ctl t.parser _ t.gone (K.after ht (K.down s hp))

theorem Kept.read (K : Kept net P) (stop : Stop) : ∀ (reads : List Bytes) {s s' : Dev σ}, s.read net ctl reads stop = some s' →
    P s → P s' := by
  intro reads
  induction reads with
  | nil =>
    intro s s' h hp
    cases stop with
    | again => cases h; exact hp
    | reset => exact K.close h hp
    | fail => cases h
  | cons c cs ih =>
    intro s s' h hp
    simp only [Dev.read] at h
    split at h
    · exact K.close h hp
    · split at h
      · rename_i r p ev hcons
        split at h
        · cases h
        · rename_i t ht
          exact ih h (K.deliver ev ht (K.rest s s.ctl p s.closes s.gone hp))
      · cases h

theorem Kept.step (K : Kept net P) {s s' : Dev σ} {op : Op σ} (h : s.step net ctl op = some s') (hp : P s) : P s' := by
  simp only [Dev.step] at h
  split at h
  · cases h; exact hp
  · cases op with
    | tick reads stop =>
      simp only at h
      split at h
      · cases h
      · rename_i t ht
        refine K.after h ?_
        split at ht
        · exact K.read stop reads ht hp
        · exact K.close ht hp
    | work next ms => exact K.after h hp
    | remove =>
      simp only at h
      split at h
      · cases h; exact hp
      · cases h; exact K.rest s s.ctl s.parser s.closes true hp

theorem Kept.run (K : Kept net P) : ∀ (ops : List (Op σ)) {s s' : Dev σ}, s.run net ctl ops = some s' → P s → P s' := by
  intro ops
  induction ops with
  | nil => intro s s' h hp; cases h; exact hp
  | cons op ops ih =>
    intro s s' h hp
    obtain ⟨t, h1, h2⟩ := run_cons h
    exact ih h2 (K.step h1 hp)

end

/-! ### What is put on the wire -/

theorem onWire_append (a b : List Msg) : onWire (a ++ b) = onWire a ++ onWire b := by simp [onWire]

/-- The socket is connected and each write takes `n` octets. -/
def Net.Takes (net : Net) (n : Nat) : Prop := ∀ i, net.alive i = true ∧ n ≤ net.room i

def OnWire (n : Nat) (s : Dev σ) : Prop := (∀ m ∈ toHost s.log, m.2.length < n) →
  ∃ sent late, toHost s.log = sent ++ late ∧ s.wire = onWire sent ∧ (s.up = true → late = [])

theorem onWire_one (k : Kind) (p : Bytes) : onWire [(k, p)] = idc k :: p := by
  cases k <;> simp [onWire, idc, typeOctet]

theorem onWire_kept {net : Net} {n : Nat} (hn : 0 < n) (h : net.Takes n) : Kept net (OnWire (σ := σ) n) where
  recv := by
    intro s s' k p hs hp
    obtain ⟨a1, a2, a3, a4, a5, a6, a7⟩ := note_some hs
    have : toHost s'.log = toHost s.log := by rw [a1, toHost_append]; simp [toHost]
    simp only [OnWire, this, a4, a5]
    exact hp
  send := by
    intro s s' k p hs hp
    obtain ⟨a1, a2, a3, a4, a5, a6, a7⟩ := note_some hs
    obtain ⟨b1, b2, b3, b4, b5, b6, b7, b8⟩ := put_same net s' k p
    have e : toHost (s'.put net k p).log = toHost s.log ++ [(k, p)] := by rw [b1, a1, toHost_append]; simp [toHost]
    intro hl
    rw [e] at hl ⊢
    obtain ⟨sent, late, c1, c2, c3⟩ := hp (fun m hm => hl m (List.mem_append_left _ hm))
    cases hu : s.up with
    | false =>
      refine ⟨sent, late ++ [(k, p)], by rw [c1]; simp, by rw [b8 (by rw [a4, hu]), a5, c2], ?_⟩
      intro h'; rw [b4, a4, hu] at h'; cases h'
    | true =>
      have hl0 : late = [] := c3 hu
      subst hl0
      refine ⟨sent ++ [(k, p)], [], by rw [c1]; simp, ?_, fun _ => rfl⟩
      rw [onWire_append, onWire_one]
      have hlen : p.length < n := hl (k, p) (by simp)
      have h1 := h s'.writes
      have h2 := h (s'.writes + 1)
      simp only [Dev.put, a4, hu, (h s'.asks).1, Bool.and_self, if_true]
      rw [a5, c2, List.take_of_length_le (by simp; omega), List.take_of_length_le (by omega)]
      simp
  rest := by intro s c p cl g hp; exact hp
  down := by
    intro s hp hl
    obtain ⟨sent, late, c1, c2, c3⟩ := hp hl
    exact ⟨sent, late, c1, c2, by intro h; cases h⟩

/-! ### Nothing ends the process -/

/-- There is no filter. -/
def Unfiltered (s : Dev σ) : Prop := ∀ t, s.trace = some t → t.filter = none

theorem note_total (net : Net) {s : Dev σ} (h : Unfiltered s) (d k p) : ∃ s', s.note net d k p = some s' ∧ Unfiltered s' := by
  simp only [Dev.note]
  split
  · rename_i ht
    refine ⟨_, rfl, ?_⟩
    intro t' h'; simp only at h'; rw [ht] at h'; cases h'
  · rename_i t ht
    have := h t ht
    simp only [Trace.append, this]
    refine ⟨_, rfl, ?_⟩
    intro t' h'; simp only [Option.some.injEq] at h'; subst h'; rfl

theorem put_unfiltered (net : Net) {s : Dev σ} (h : Unfiltered s) (k p) : Unfiltered (s.put net k p) := by
  intro t ht; rw [(put_same net s k p).2.2.2.2.2.2.1] at ht; exact h t ht

theorem send_total (net : Net) : ∀ (ms : List Msg) {s : Dev σ}, Unfiltered s → ∃ s', s.send net ms = some s' ∧ Unfiltered s' := by
  intro ms
  induction ms with
  | nil => intro s h; exact ⟨s, rfl, h⟩
  | cons m ms ih =>
    obtain ⟨k, p⟩ := m
    intro s h
    obtain ⟨t, ht, hu⟩ := note_total net h .controllerToHost k p
    simp only [Dev.send, ht]
    exact ih (put_unfiltered net hu k p)

/-- The controller never aborts. -/
structure Ctl.Total (ctl : Ctl σ) : Prop where
  handle : ∀ s k p, (ctl.handle s k p).isSome = true
  tick : ∀ s, (ctl.tick s).isSome = true
  close : ∀ s, (ctl.close s).isSome = true

theorem after_total (net : Net) {s : Dev σ} (h : Unfiltered s) {r} (hr : r.isSome = true) :
    ∃ s', s.after net r = some s' ∧ Unfiltered s' := by
  cases r with
  | none => cases hr
  | some r => exact send_total net r.2 (s := { s with ctl := r.1 }) h

theorem close_total (net : Net) {ctl : Ctl σ} (T : ctl.Total) {s : Dev σ} (h : Unfiltered s) :
    ∃ s', s.close net ctl = some s' ∧ Unfiltered s' := by
  obtain ⟨t, ht, hu⟩ := after_total net (s := { s with up := false }) h (T.close s.ctl)
  simp only [Dev.close, ht]
  exact ⟨_, rfl, hu⟩

theorem deliver_total (net : Net) {ctl : Ctl σ} (T : ctl.Total) : ∀ (ev : List Msg) {s : Dev σ}, Unfiltered s →
    (∀ e ∈ ev, e.1 ≠ .event) → ∃ s', s.deliver net ctl ev = some s' ∧ Unfiltered s' := by
  intro ev
  induction ev with
  | nil => intro s h _; exact ⟨s, rfl, h⟩
  | cons m ms ih =>
    obtain ⟨k, p⟩ := m
    intro s h he
    have hk : k ≠ .event := he (k, p) (by simp)
    obtain ⟨t, ht, hu⟩ := note_total net h .hostToController k p
    obtain ⟨u, hu1, hu2⟩ := after_total net hu (T.handle t.ctl k p)
    simp only [Dev.deliver, hk, if_false, ht, hu1]
    exact ih hu2 (fun e he' => he e (by simp [he']))

theorem read_total (net : Net) {ctl : Ctl σ} (T : ctl.Total) {stop : Stop} (hs : stop ≠ .fail) : ∀ (reads : List Bytes) {s : Dev σ}
    {r p ev}, Unfiltered s → H4.feed s.parser (bringing reads) = .done r p ev → (∀ e ∈ ev, e.1 ≠ .event) →
    ∃ s', s.read net ctl reads stop = some s' ∧ Unfiltered s' := by
  intro reads
  induction reads with
  | nil =>
    intro s r p ev h _ _
    cases stop with
    | again => exact ⟨s, rfl, h⟩
    | reset => exact close_total net T h
    | fail => exact absurd rfl hs
  | cons c cs ih =>
    intro s r p ev h hf he
    by_cases hc : c = []
    · simp only [Dev.read, hc, if_true]; exact close_total net T h
    · have hb : bringing (c :: cs) = c :: bringing cs := by simp [bringing, hc]
      rw [hb] at hf
      simp only [H4.feed] at hf
      split at hf
      · rename_i r1 p1 ev1 hcons
        split at hf
        · rename_i r2 p2 ev2 hf2
          injection hf with e1 e2 e3
          subst e3
          obtain ⟨t, ht, hu⟩ := deliver_total net T ev1 (s := { s with parser := p1 }) h (fun e h' => he e (by simp [h']))
          simp only [Dev.read, hc, if_false, hcons, ht]
          have hpar : t.parser = p1 := (deliver_some ev1 ht).2.1
          exact ih hu (by rw [hpar]; exact hf2) (fun e h' => he e (by simp [h']))
        · rename_i hno
          rw [hf] at hno
          exact absurd rfl (hno _ _ _)
      · rename_i hno
        rw [hf] at hno
        exact absurd rfl (hno _ _ _)

/-- A history without errors of reads. -/
def Op.ok : Op σ → Bool
  | .tick _ .fail => false
  | _ => true

theorem step_total (net : Net) {ctl : Ctl σ} (T : ctl.Total) {s : Dev σ} {op : Op σ} {r p ev} (hu : Unfiltered s)
    (hop : op.ok = true) (hf : H4.feed s.parser (heardNow s op) = .done r p ev) (he : ∀ e ∈ ev, e.1 ≠ .event) :
    ∃ s', s.step net ctl op = some s' ∧ Unfiltered s' := by
  simp only [Dev.step]
  cases hg : s.gone with
  | true => exact ⟨s, by simp, hu⟩
  | false =>
    simp only [Bool.false_eq_true, if_false]
    cases op with
    | tick reads stop =>
      have hs : stop ≠ .fail := by rintro rfl; cases hop
      cases hup : s.up with
      | true =>
        simp only [heardNow, hg, hup, Bool.not_false, Bool.and_self, if_true] at hf
        obtain ⟨t, ht, hu'⟩ := read_total net T hs reads hu hf he
        simp only [if_true, ht]
        exact after_total net hu' (T.tick _)
      | false =>
        obtain ⟨t, ht, hu'⟩ := close_total net T hu
        simp only [Bool.false_eq_true, if_false, ht]
        exact after_total net hu' (T.tick _)
    | work next ms => exact after_total net hu rfl
    | remove =>
      simp only
      split
      · exact ⟨s, rfl, hu⟩
      · exact ⟨_, rfl, hu⟩

theorem run_total (net : Net) {ctl : Ctl σ} (T : ctl.Total) : ∀ (ops : List (Op σ)) {s : Dev σ} {r p ev}, Unfiltered s →
    ops.all Op.ok = true → H4.feed s.parser (heard net ctl s ops) = .done r p ev → (∀ e ∈ ev, e.1 ≠ .event) →
    ∃ s', s.run net ctl ops = some s' := by
  intro ops
  induction ops with
  | nil => intro s r p ev _ _ _ _; exact ⟨s, rfl⟩
  | cons op ops ih =>
    intro s r p ev hu hok hf he
    simp only [List.all_cons, Bool.and_eq_true] at hok
    simp only [heard] at hf
    rw [H4.feed_append] at hf
    cases hn : H4.feed s.parser (heardNow s op) with
    | done r1 p1 ev1 =>
      rw [hn] at hf
      simp only [H4.Outcome.andThen] at hf
      split at hf
      · rename_i r2 p2 ev2 hf2
        injection hf with e1 e2 e3
        subst e3
        obtain ⟨t, ht, hu'⟩ := step_total net T hu hok.1 hn (fun e h' => he e (by simp [h']))
        simp only [Dev.run, ht]
        rw [ht] at hf2
        obtain ⟨⟨ev3, a1, -⟩, -⟩ := step_some ht
        rw [hn] at a1
        injection a1 with e4 e5 e6
        subst e5
        exact ih hu' hok.2 hf2 (fun e h' => he e (by simp [h']))
      · rename_i hno
        rw [hf] at hno
        exact absurd rfl (hno _ _ _)
    | abort => rw [hn] at hf; cases hf
    | ub => rw [hn] at hf; cases hf

theorem feed_done : ∀ (reads : List Bytes) (p : Parser), H4.Reachable true p → H4.Respects p reads →
    ∃ r p' ev, H4.feed p reads = .done r p' ev := by
  intro reads
  induction reads with
  | nil => intro p _ _; exact ⟨true, p, [], rfl⟩
  | cons c cs ih =>
    intro p hp hr
    obtain ⟨hne, hle, hrest⟩ := hr
    obtain ⟨r, p', ev, hc⟩ := H4.C03_no_abort_with_recovery p hp c hle
    obtain ⟨r', p'', ev', hf⟩ := ih p' (H4.Reachable.step hp hle hc) (hrest r p' ev hc)
    exact ⟨r', p'', ev ++ ev', by simp only [H4.feed, hc, hf]⟩

/-! ### The trace -/

theorem number_le (n : Nat) : ∀ x, x < 256 ^ n → number (le n x) = x := by
  induction n with
  | zero => intro x h; simp [le, number] at *; omega
  | succ n ih =>
    intro x h
    have h' : x / 256 < 256 ^ n := by
      rw [Nat.div_lt_iff_lt_mul (by decide)]; rw [Nat.pow_succ] at h; exact h
    simp only [le, number, ih _ h']
    have : (UInt8.ofNat (x % 256)).toNat = x % 256 := by simp
    rw [this]
    omega

theorem le_four (x : Nat) : ∃ a b c d, le 4 x = [a, b, c, d] := ⟨_, _, _, _, rfl⟩

/-- A record: the time, the direction, the type, the length of the packet, and what is written of it. -/
structure Entry where
  time : Nat
  dir : Dir
  kind : Kind
  len : Nat
  data : Bytes

def Entry.bytes (e : Entry) : Bytes := recordHeader e.time (4 + 1 + e.len) ++ [0, 0, 0, e.dir.octet] ++ [idc e.kind] ++ e.data

def Entry.toRec (e : Entry) : Rec :=
  ⟨e.time / 1000000, e.time % 1000000 / 1000, 5 + e.len, captured e.dir e.kind e.data⟩

def Entry.Ok (e : Entry) : Prop := e.time < 4294967296 * 1000000 ∧ e.data.length = e.len ∧ e.len < 4294967291

theorem captured_eq (d : Dir) (k : Kind) (p : Bytes) : captured d k p = [0, 0, 0, d.octet] ++ [idc k] ++ p := by
  cases d <;> simp [captured, Dir.octet, onWire_one]

/-- A record: the time and what is written. -/
structure Raw where
  time : Nat
  data : Bytes

def Raw.bytes (e : Raw) : Bytes := recordHeader e.time e.data.length ++ e.data

def Raw.toRec (e : Raw) : Rec := ⟨e.time / 1000000, e.time % 1000000 / 1000, e.data.length, e.data⟩

def Raw.Ok (e : Raw) : Prop := e.time < 4294967296 * 1000000 ∧ e.data.length < 4294967296

theorem readRecords_raw : ∀ (es : List Raw) (n : Nat), es.length ≤ n → (∀ e ∈ es, e.Ok) →
    readRecords n (es.flatMap Raw.bytes) = some (es.map Raw.toRec) := by
  intro es
  induction es with
  | nil => intro n _ _; cases n <;> rfl
  | cons e es ih =>
    intro n hn hok
    cases n with
    | zero => simp at hn
    | succ n =>
      obtain ⟨h1, h2⟩ := hok e (by simp)
      have hrest := ih n (by simpa using hn) (fun e' he' => hok e' (by simp [he']))
      obtain ⟨a0, a1, a2, a3, ha⟩ := le_four (e.time / 1000000)
      obtain ⟨b0, b1, b2, b3, hb⟩ := le_four (e.time % 1000000 / 1000)
      obtain ⟨c0, c1, c2, c3, hc⟩ := le_four e.data.length
      have na := number_le 4 (e.time / 1000000) (by omega)
      have nb := number_le 4 (e.time % 1000000 / 1000) (by omega)
      have nc := number_le 4 e.data.length (by omega)
      have hl : (e :: es).flatMap Raw.bytes = a0 :: a1 :: a2 :: a3 :: b0 :: b1 :: b2 :: b3 :: c0 :: c1 :: c2 :: c3
          :: c0 :: c1 :: c2 :: c3 :: (e.data ++ es.flatMap Raw.bytes) := by
        simp only [List.flatMap_cons, Raw.bytes, recordHeader, ha, hb, hc]
        simp
      rw [hl]
      rw [ha] at na; rw [hb] at nb; rw [hc] at nc
      have e1 : (e.data ++ es.flatMap Raw.bytes).drop e.data.length = es.flatMap Raw.bytes := List.drop_left
      have e2 : (e.data ++ es.flatMap Raw.bytes).take e.data.length = e.data := List.take_left
      simp only [readRecords, List.drop_succ_cons, List.drop_zero, List.take_succ_cons, List.take_zero, na, nb, nc]
      rw [if_neg (by simp; omega)]
      rw [show 16 + e.data.length = e.data.length + 1 + 1 + 1 + 1 + 1 + 1 + 1 + 1 + 1 + 1 + 1 + 1 + 1 + 1 + 1 + 1 by omega]
      simp only [List.drop_succ_cons, e1, e2, hrest]
      simp [Raw.toRec]

theorem readFile_raw (linktype : Nat) (ht : linktype < 256) (es : List Raw) (hok : ∀ e ∈ es, e.Ok) :
    readFile (fileHeader linktype ++ es.flatMap Raw.bytes) = some (linktype, es.map Raw.toRec) := by
  have hh : fileHeader linktype
      = [0xd4, 0xc3, 0xb2, 0xa1, 2, 0, 4, 0, 0, 0, 0, 0, 0, 0, 0, 0, 255, 255, 255, 255, UInt8.ofNat linktype, 0, 0, 0] := by
    simp only [fileHeader, le]
    rw [Nat.mod_eq_of_lt ht, Nat.div_eq_of_lt ht]
    rfl
  have hn : es.length ≤ (fileHeader linktype ++ es.flatMap Raw.bytes).length := by
    rw [hh]
    have : ∀ l : List Raw, l.length ≤ (l.flatMap Raw.bytes).length := by
      intro l
      induction l with
      | nil => simp
      | cons e l ih => simp only [List.flatMap_cons, List.length_append, Raw.bytes, recordHeader, List.length_cons, le]; omega
    have := this es
    simp only [List.length_append]
    omega
  have := readRecords_raw es _ hn hok
  have hd : (fileHeader linktype ++ es.flatMap Raw.bytes).drop 24 = es.flatMap Raw.bytes := by rw [hh]; rfl
  simp only [readFile, hd, this]
  have hnum : (UInt8.ofNat linktype).toNat = linktype := by simp; omega
  rw [if_neg]
  · rw [hh]; simp [number, Nat.mod_eq_of_lt ht]
  · rw [hh]; simp [number]

theorem readFile_entries (es : List Entry) (hok : ∀ e ∈ es, e.Ok) :
    readFile (fileHeader 201 ++ es.flatMap Entry.bytes) = some (201, es.map Entry.toRec) := by
  let raw : Entry → Raw := fun e => ⟨e.time, captured e.dir e.kind e.data⟩
  have hlen : ∀ e ∈ es, (captured e.dir e.kind e.data).length = 4 + 1 + e.len := by
    intro e he
    rw [captured_eq, ← (hok e he).2.1]; simp; omega
  have e1 : es.flatMap Entry.bytes = (es.map raw).flatMap Raw.bytes := by
    clear hok
    induction es with
    | nil => rfl
    | cons e es ih =>
      rw [List.flatMap_cons, List.map_cons, List.flatMap_cons, ih (fun e' h => hlen e' (by simp [h]))]
      congr 1
      have hl := hlen e (by simp)
      show _ = recordHeader e.time (captured e.dir e.kind e.data).length ++ captured e.dir e.kind e.data
      rw [hl, captured_eq]
      simp [Entry.bytes]
  have e2 : es.map Entry.toRec = (es.map raw).map Raw.toRec := by
    rw [List.map_map]
    apply List.map_congr_left
    intro e he
    simp only [Function.comp, raw, Raw.toRec, Entry.toRec, hlen e he]
  rw [e1, e2]
  apply readFile_raw _ (by decide)
  intro r hr
  simp only [List.mem_map] at hr
  obtain ⟨e, he, rfl⟩ := hr
  refine ⟨(hok e he).1, ?_⟩
  have h3 := (hok e he).2.2
  simp only [raw, hlen e he]
  omega

theorem session_snoc : ∀ (ps : List (Bytes × UInt8)) (m m' m'' : Pcap.Names) (qs : List Bytes) (p : Bytes) (i : UInt8) (q : Bytes),
    Pcap.session m ps = some (m', qs) → Pcap.filterPacket m' p i = some (m'', q) →
    Pcap.session m (ps ++ [(p, i)]) = some (m'', qs ++ [q]) := by
  intro ps
  induction ps with
  | nil =>
    intro m m' m'' qs p i q h hf
    simp only [Pcap.session, Option.some.injEq, Prod.mk.injEq] at h
    obtain ⟨rfl, rfl⟩ := h
    simp [Pcap.session, hf]
  | cons x ps ih =>
    obtain ⟨p0, i0⟩ := x
    intro m m' m'' qs p i q h hf
    simp only [Pcap.session] at h
    split at h
    · cases h
    · rename_i m1 q1 h1
      split at h
      · cases h
      · rename_i m2 qs2 h2
        cases h
        simp only [List.cons_append, Pcap.session, h1, ih _ _ _ _ _ _ _ h2 hf]

def Traced (net : Net) (b : Bool) (s : Dev σ) : Prop := ∃ (t : Trace) (es : List Entry), s.trace = some t ∧ t.count = s.log.length
  ∧ t.file = fileHeader 201 ++ es.flatMap Entry.bytes
  ∧ es.map (fun e => (e.dir, e.kind, e.len)) = s.log.map (fun e => (e.1, e.2.1, e.2.2.length))
  ∧ es.map Entry.time = (List.range s.log.length).map net.clock
  ∧ (b = false → t.filter = none ∧ es.map Entry.data = s.log.map (fun e => e.2.2))
  ∧ (b = true → ∃ m, t.filter = some m ∧ Pcap.session [] (s.log.map (fun e => (e.2.2, idc e.2.1))) = some (m, es.map Entry.data))

theorem traced_note {net : Net} {b : Bool} {s s' : Dev σ} {d k p} (h : s.note net d k p = some s') (ht : Traced net b s) :
    Traced net b s' := by
  obtain ⟨t, es, h1, h2, h3, h4, h5, h6, h7⟩ := ht
  simp only [Dev.note, h1] at h
  split at h
  · cases h
  · rename_i t' hap
    cases h
    cases b with
    | false =>
      obtain ⟨h6a, h6b⟩ := h6 rfl
      simp only [Trace.append, h6a, Option.some.injEq] at hap
      subst hap
      refine ⟨_, es ++ [⟨net.clock t.count, d, k, p.length, p⟩], rfl, by simp [h2], ?_, ?_, ?_, ?_, by simp⟩
      · simp [h3, Entry.bytes]
      · simp [h4]
      · simp [h5, h2, List.range_succ]
      · simp [h6b]
    | true =>
      obtain ⟨m, h7a, h7b⟩ := h7 rfl
      simp only [Trace.append, h7a] at hap
      split at hap
      · cases hap
      · rename_i m' q hq
        simp only [Option.some.injEq] at hap
        subst hap
        refine ⟨_, es ++ [⟨net.clock t.count, d, k, p.length, q⟩], rfl, by simp [h2], ?_, ?_, ?_, by simp, ?_⟩
        · simp [h3, Entry.bytes]
        · simp [h4]
        · simp [h5, h2, List.range_succ]
        · intro _
          refine ⟨m', rfl, ?_⟩
          simp only [List.map_append, List.map_cons, List.map_nil]
          exact session_snoc _ _ _ _ _ _ _ _ h7b hq

theorem traced_kept (net : Net) (b : Bool) : Kept net (Traced (σ := σ) net b) where
  recv := fun _ _ _ _ h hp => traced_note h hp
  send := by
    intro s s' k p h hp
    have := traced_note h hp
    obtain ⟨b1, -, -, -, -, -, b7, -⟩ := put_same net s' k p
    simp only [Traced, b1, b7]
    exact this
  rest := by intro s c p cl g hp; exact hp
  down := by intro s hp; exact hp

end Verif.Port
