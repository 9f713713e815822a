import Verif.Voice.Lemmas
import Verif.Br.PropsSync
/-!
# C92: enhanced synchronous connections

C92: Enhanced Setup and Enhanced Accept Synchronous Connection are refused with 0x12, without effect, exactly if their
parameters break a rule of the specification; otherwise they do what the plain commands do. The air mode that both hosts are
told is that of the coding format. A data path that is not HCI makes a spoofed stream.
-/
namespace Verif.Voice
open Verif.Br (Ctl Cmd Ev Net NAct Res Info linked syncs isSync airOfVoice nrun)
open Verif.Sco (ConnParams)

/-- C92: the setup command. Legal parameters: as Setup Synchronous Connection with the bandwidths, latency, packet types
and effort of the command and the voice setting of the controller, with a spoofed stream unless both paths are HCI. Other
parameters: status 0x12 and nothing else. -/
theorem C92_setup (v : V) (now h : Nat) (p : Params) :
    (Legal p → vcommand v now (.setup h p) =
      Br.command v.c now (.setupSync h ⟨p.txBandwidth, p.rxBandwidth, p.maxLatency, v.voice, p.effort, p.packetType⟩
        (!decide (p.inPath = 0 ∧ p.outPath = 0)))) ∧
    (¬Legal p → vcommand v now (.setup h p) = .ok 0x12 v.c [] []) := by
  constructor
  · intro hl
    have hs : spoofed p = !decide (p.inPath = 0 ∧ p.outPath = 0) := by
      by_cases a : p.inPath = 0 <;> by_cases b : p.outPath = 0 <;> simp [spoofed, a, b]
    simp only [vcommand, (legal_iff p).mp hl, Bool.false_eq_true, if_false, plain, hs]
  · intro hl
    have hr : refused p = true := by
      rw [legal_iff] at hl
      simpa using hl
    simp only [vcommand, hr, if_true, Br.refuse]
    rfl

/-- C92: the accept command, in the same way. Missing: that the data path is respected, see
`C92_accept_path_violated`. -/
theorem C92_accept_partial (v : V) (now a : Nat) (p : Params) :
    (Legal p → vcommand v now (.accept a p) =
      Br.command v.c now (.acceptSync a ⟨p.txBandwidth, p.rxBandwidth, p.maxLatency, v.voice, p.effort, p.packetType⟩)) ∧
    (¬Legal p → vcommand v now (.accept a p) = .ok 0x12 v.c [] []) := by
  constructor
  · intro hl
    simp only [vcommand, (legal_iff p).mp hl, Bool.false_eq_true, if_false, plain]
  · intro hl
    have hr : refused p = true := by
      rw [legal_iff] at hl
      simpa using hl
    simp only [vcommand, hr, if_true, Br.refuse]
    rfl

/-- CVSD on the air and linear PCM at the host, as HFP uses it. -/
def cvsd : Params := ⟨8000, 8000, ⟨2, 0, 0⟩, ⟨2, 0, 0⟩, 16000, 16000, ⟨4, 0, 0⟩, ⟨4, 0, 0⟩, 0, 0, 0xffff, 0x3f, 0xff⟩

/-- Transparent data. -/
def clear : Params := ⟨8000, 8000, ⟨3, 0, 0⟩, ⟨3, 0, 0⟩, 8000, 8000, ⟨3, 0, 0⟩, ⟨3, 0, 0⟩, 0, 0, 0xffff, 0x3f, 0xff⟩

/-- Some parameters are legal, also with a codec of the controller or one way only; each rule can be broken alone. -/
example : Legal cvsd ∧ Legal clear ∧ Legal { cvsd with outBandwidth := 0 } ∧ Legal { cvsd with inPath := 1, outPath := 1 } ∧
    ¬Legal { cvsd with rxCoding := ⟨2, 1, 0⟩ } ∧ ¬Legal { cvsd with outBandwidth := 8000 } ∧
    ¬Legal { cvsd with outCoding := ⟨4, 0, 7⟩ } ∧ ¬Legal { clear with txBandwidth := 4000 } ∧
    ¬Legal { clear with rxBandwidth := 4000 } ∧ ¬Legal { cvsd with inCoding := ⟨3, 0, 0⟩, outCoding := ⟨3, 0, 0⟩ } := by
  simp only [legal_iff]
  decide

/-- Nobody uses the empty address. -/
def named : VAct → Bool
  | .hostA (.base (.create x _)) => x ≠ 0
  | .hostB (.base (.create x _)) => x ≠ 0
  | _ => true

/-- The voice setting of a host with these commands: the one written last, 0x0060 (CVSD) at first and after Reset. -/
def voiceOf (cs : List VCmd) : UInt16 :=
  cs.foldl (fun v c => match c with
    | .writeVoice w => w
    | .base .reset => 0x0060
    | _ => v) 0x0060

/-- The voice setting the enhanced commands use (`C92_setup`, `C92_accept_partial`) is the one the host wrote last, CVSD at
first and after Reset; what the other host writes does not matter. -/
theorem C92_voice (net : Br.Net) (xs : List (Nat × VAct)) (n : VNet) (ea eb : List Ev) (h : vrun (VNet.fresh net) xs = some (n, ea, eb)) :
    n.voiceA = voiceOf (xs.filterMap (fun x => match x.2 with | .hostA c => some c | _ => none)) ∧
    n.voiceB = voiceOf (xs.filterMap (fun x => match x.2 with | .hostB c => some c | _ => none)) := by
  have after : ∀ v c, voiceAfter v c = (match c with | .writeVoice w => w | .base .reset => 0x0060 | _ => v) := by
    intro v c
    cases c with
    | base c => cases c <;> rfl
    | _ => rfl
  have key : ∀ (xs : List (Nat × VAct)) (m : VNet) (ea eb : List Ev), vrun m xs = some (n, ea, eb) →
      n.voiceA = (xs.filterMap (fun x => match x.2 with | .hostA c => some c | _ => none)).foldl
        (fun v c => match c with | .writeVoice w => w | .base .reset => 0x0060 | _ => v) m.voiceA ∧
      n.voiceB = (xs.filterMap (fun x => match x.2 with | .hostB c => some c | _ => none)).foldl
        (fun v c => match c with | .writeVoice w => w | .base .reset => 0x0060 | _ => v) m.voiceB := by
    intro xs
    induction xs with
    | nil => intro m ea eb h; cases h; exact ⟨rfl, rfl⟩
    | cons x xs ih =>
      intro m ea eb h
      obtain ⟨now, x⟩ := x
      simp only [vrun] at h
      split at h
      · cases h
      · rename_i m1 a1 b1 h1
        rw [Option.map_eq_some_iff] at h
        obtain ⟨⟨n', a2, b2⟩, h2, h3⟩ := h
        cases h3
        have := ih m1 _ _ h2
        cases x with
        | hostA c =>
          simp only [vstep, Option.map_eq_some_iff] at h1
          obtain ⟨r, -, e⟩ := h1
          injection e with e1 e2
          subst e1
          simpa [after] using this
        | hostB c =>
          simp only [vstep, Option.map_eq_some_iff] at h1
          obtain ⟨r, -, e⟩ := h1
          injection e with e1 e2
          subst e1
          simpa [after] using this
        | other y =>
          have : m1.voiceA = m.voiceA ∧ m1.voiceB = m.voiceB := by
            have one : ∀ o : Option (Br.Net × List Ev × List Ev),
                o.map (fun r => ((⟨r.1, m.voiceA, m.voiceB⟩ : VNet), r.2)) = some (m1, a1, b1) → m1.voiceA = m.voiceA ∧ m1.voiceB = m.voiceB := by
              intro o ho
              rw [Option.map_eq_some_iff] at ho
              obtain ⟨r, -, e⟩ := ho
              injection e with e1 e2
              subst e1
              exact ⟨rfl, rfl⟩
            cases y with
            | hostA c => cases h1
            | hostB c => cases h1
            | _ =>
              simp only [vstep] at h1
              exact one _ h1
          simpa [this.1, this.2] using ih m1 _ _ h2
  exact key xs _ ea eb h

example : voiceOf [.writeVoice 0x63, .base .reset] = 0x60 ∧ voiceOf [.base .reset, .writeVoice 0x63] = 0x63 := by decide

/-- C92: after any history that left them connected, without synchronous connections and with no packet on its way, A's
host sets up a connection with legal parameters, B's host is asked and accepts with legal parameters. Both are told the
same outcome, with the air mode of A's voice setting. Missing: that it is the air mode of the coding format, see
`C92_air_violated`. -/
theorem C92_outcome_partial (a b : Nat) (ha : a ≠ 0) (hb : b ≠ 0) (ia ib : Info) (na nb : Nat) (before : List (Nat × VAct))
    (hx : before.all (fun x => named x.2) = true) (n : VNet) (ea eb : List Ev)
    (hbefore : vrun (VNet.fresh (Net.fresh a b ia ib na nb)) before = some (n, ea, eb))
    (h : Nat) (hl : linked n.net.a h b) (hq : n.net.toA = [] ∧ n.net.toB = []) (h0 : syncs n.net.a b = 0 ∧ syncs n.net.b a = 0)
    (hroom : n.net.a.sco.length < 256 ∧ n.net.b.sco.length < 256) (t0 t1 t2 t3 : Nat) (p q : Params) (hp : Legal p) (hq' : Legal q) :
    ∃ n' e e' f, vrun n [(t0, .hostA (.setup h p)), (t1, .other .arriveB), (t2, .hostB (.accept a q)), (t3, .other .arriveA)] =
        some (n', [e], [f, e']) ∧
      ((∃ kA kB link interval window rx tx, e = .syncComplete 0 kA b link interval window rx tx (airOfVoice n.voiceA) ∧
          e' = .syncComplete 0 kB a link interval window rx tx (airOfVoice n.voiceA) ∧ syncs n'.net.a b = 1 ∧ syncs n'.net.b a = 1 ∧
          isSync n'.net.a kA = true ∧ isSync n'.net.b kB = true) ∨
        (∃ st link link' air air', st ≠ 0 ∧ e = .syncComplete st 0 b link 0 0 0 0 air ∧ e' = .syncComplete st 0 a link' 0 0 0 0 air' ∧
          syncs n'.net.a b = 0 ∧ syncs n'.net.b a = 0)) := by
  obtain ⟨ys, hn, hr⟩ := flatten before hbefore (by
    intro x hxm a w
    have := List.all_eq_true.mp hx x hxm
    by_cases hz : a = 0
    · left
      subst hz
      constructor <;> intro e <;> rw [e] at this <;> simp [named] at this
    · exact .inr hz)
  obtain ⟨n', e, e', f, h1, -, -, -, h2⟩ := Br.C66_outcome_partial a b ha hb ia ib na nb ys hn n.net ea eb hr h hl hq h0 hroom t0 t1 t2 t3
    (plain n.voiceA p) (plain n.voiceB q) (spoofed p)
  refine ⟨⟨n', n.voiceA, n.voiceB⟩, e, e', f, ?_, h2⟩
  have hp' := (legal_iff p).mp hp
  have hq'' := (legal_iff q).mp hq'
  simp only [Br.nrun] at h1
  simp only [vrun, vstep, vcommand, hp', hq'', Bool.false_eq_true, if_false, voiceAfter]
  split at h1
  · cases h1
  · rename_i n1 a1 b1 s1
    simp only [Br.nstep] at s1
    rw [s1]
    simp only [Option.map_eq_some_iff] at h1
    obtain ⟨⟨m1, c1, d1⟩, h1, h3⟩ := h1
    split at h1
    · cases h1
    · rename_i n2 a2 b2 s2
      simp only [Option.map_some]
      rw [s2]
      simp only [Option.map_eq_some_iff] at h1
      obtain ⟨⟨m2, c2, d2⟩, h1, h4⟩ := h1
      split at h1
      · cases h1
      · rename_i n3 a3 b3 s3
        simp only [Br.nstep] at s3
        simp only [Option.map_some]
        rw [s3]
        simp only [Option.map_eq_some_iff] at h1
        obtain ⟨⟨m3, c3, d3⟩, h1, h5⟩ := h1
        split at h1
        · cases h1
        · rename_i n4 a4 b4 s4
          simp only [Option.map_some]
          rw [s4]
          cases h1
          cases h5
          cases h4
          simp only [Option.map_some]
          simp only [Prod.mk.injEq] at h3 ⊢
          obtain ⟨h6, h7, h8⟩ := h3
          simp only [h6, h7, h8]

/-- A connects to B. -/
def meeting : List (Nat × VAct) :=
  [(0, .hostB (.base (.writeScanEnable true true))), (0, .hostA (.base (.create 0xB true))),
   (1000000000, .other .tickA), (1000000001, .other .arriveB), (1000000002, .hostB (.base (.accept 0xA false))), (1000000003, .other .arriveA)]

/-- The two hosts make a synchronous connection. -/
def talk (p q : Params) : List (Nat × VAct) :=
  [(2000000000, .hostA (.setup 0 p)), (2000000001, .other .arriveB), (2000000002, .hostB (.accept 0xA q)), (2000000003, .other .arriveA)]

/-- The last event of each host. -/
def ends (xs : List (Nat × VAct)) : Option (Option Ev × Option Ev) :=
  (vrun (VNet.fresh Br.exampleNet) xs).map (fun r => (r.2.1.getLast?, r.2.2.getLast?))

/-- They are connected, and get a connection, with the air mode of the voice setting, or are both told that there is
none. -/
example : meeting.all (fun x => named x.2) = true ∧
    (vrun (VNet.fresh Br.exampleNet) meeting).map (fun r => (r.1.net.a.acl.map (fun e => (e.1, e.2.addr)), r.1.net.toA.length + r.1.net.toB.length,
      syncs r.1.net.a 0xB + syncs r.1.net.b 0xA)) = some ([(0, 0xB)], 0, 0) ∧
    ends (meeting ++ talk cvsd cvsd) =
      some (some (.syncComplete 0 0x100 0xB .esco 108 0 540 540 2), some (.syncComplete 0 0x100 0xA .esco 108 0 540 540 2)) ∧
    ends (meeting ++ [(0, .hostA (.writeVoice 0x63)), (0, .hostB (.writeVoice 0x63))] ++ talk clear clear) =
      some (some (.syncComplete 0 0x100 0xB .esco 108 0 540 540 3), some (.syncComplete 0 0x100 0xA .esco 108 0 540 540 3)) ∧
    ends (meeting ++ talk { cvsd with packetType := 0x3c8 } { cvsd with packetType := 0x3c1 }) =
      some (some (.syncComplete 0xff 0 0xB .esco 0 0 0 0 3), some (.syncComplete 0xff 0 0xA .sco 0 0 0 0 0)) := by
  decide +kernel

/-- The hosts are told the air mode of the coding format that both asked for. -/
def Heard : Prop := ∀ p q : Params, Legal p → Legal q → p.txCoding = q.txCoding →
  ∀ kA kB link link' interval interval' window window' rx rx' tx tx' air air',
    ends (meeting ++ talk p q) = some (some (.syncComplete 0 kA 0xB link interval window rx tx air),
      some (.syncComplete 0 kB 0xA link' interval' window' rx' tx' air')) →
    air = airOfCoding p.txCoding ∧ air' = airOfCoding p.txCoding

/-- They are not: for transparent data they are told CVSD, that of the voice setting after construction. -/
theorem C92_air_violated : ends (meeting ++ talk clear clear) =
      some (some (.syncComplete 0 0x100 0xB .esco 108 0 540 540 2), some (.syncComplete 0 0x100 0xA .esco 108 0 540 540 2)) ∧
    airOfCoding clear.txCoding = 3 ∧ ¬Heard := by
  have h : ends (meeting ++ talk clear clear) =
      some (some (.syncComplete 0 0x100 0xB .esco 108 0 540 540 2), some (.syncComplete 0 0x100 0xA .esco 108 0 540 540 2)) := by
    decide +kernel
  refine ⟨h, by decide, fun hh => ?_⟩
  have hl : Legal clear := (legal_iff _).mpr (by decide)
  have := (hh clear clear hl hl rfl _ _ _ _ _ _ _ _ _ _ _ _ _ _ h).1
  revert this
  decide

/-- Whether there are streams at A and at B after a history. -/
def streams (xs : List (Nat × VAct)) : Option (List Bool × List Bool) :=
  (vrun (VNet.fresh Br.exampleNet) xs).map (fun r => (r.1.net.a.sco.map (·.2.stream), r.1.net.b.sco.map (·.2.stream)))

/-- The side that sets up a connection over another path has a spoofed stream, the side that accepts it so has none. -/
theorem C92_accept_path_violated :
    streams (meeting ++ talk { cvsd with inPath := 1, outPath := 1 } cvsd) = some ([true], [false]) ∧
    streams (meeting ++ talk cvsd { cvsd with inPath := 1, outPath := 1 }) = some ([false], [false]) := by
  decide +kernel

end Verif.Voice
