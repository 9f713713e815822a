import Verif.Ll.SpecAnswer
import Verif.Ll.AskRead
import Verif.Ll.PropsAccept
import Verif.Le.AirLemmas
/-!
# Advertising as the host asked, among other devices: helper lemmas (C112)
-/

namespace Verif.Ll
open Verif.Le

/-! ### Receiving packets -/

theorem receive_lists {ah : Hash} {cfg : Config} {rnd : Irk → Address} {now : Nat} {s : State} {p : Packet} {x : State × List Out}
    (h : receive ah cfg rnd now s p = .ok x) : SameLists s.le x.1.le := by
  by_cases hap : p.apart = true
  · exact (receive_plain hap h).1.1
  cases p with
  | periodic _ => exact absurd rfl hap
  | connect _ _ _ => exact absurd rfl hap
  | scan _ _ => exact absurd rfl hap
  | link _ _ _ => exact absurd rfl hap
  | legacyAdv p => exact (receive_advertised_legacy h).1.lists
  | extAdv p => exact (receive_advertised_ext h).1.lists
  | scanResponse _ _ _ => exact (receive_response h).1
  | connectComplete _ _ _ => exact (receive_complete h).1

/-- The advertisers are the same. -/
def SameAdvs (a b : Le.State) : Prop := b.legacyAdv = a.legacyAdv ∧ b.extAdv = a.extAdv

theorem sameAdvs_update (ah : Hash) (s : Le.State) (a : AddressWithType) : SameAdvs s (resolveUpdate ah s a) := by
  obtain ⟨r, hr⟩ := resolveUpdate_frame ah s a
  rw [hr]; exact ⟨rfl, rfl⟩

theorem receive_advs {ah : Hash} {cfg : Config} {rnd : Irk → Address} {now : Nat} {s : State} {p : Packet} {x : State × List Out}
    (hp : ∀ i a q, p ≠ .connect i a q) (h : receive ah cfg rnd now s p = .ok x) : SameAdvs s.le x.1.le := by
  cases p with
  | connect i a q => exact absurd rfl (hp i a q)
  | legacyAdv p =>
    obtain ⟨y, z, hy, hz, rfl⟩ := receive_legacyAdv h
    obtain ⟨l, hi, q, h1⟩ := scanLegacy_frame hy
    rcases connectLegacy_frame hz with ⟨l', rfl⟩ | ⟨l', own, -, -, -, rfl⟩ <;> (rw [h1]; exact ⟨rfl, rfl⟩)
  | extAdv p =>
    obtain ⟨y, z, hy, hz, rfl⟩ := receive_extAdv h
    obtain ⟨l, hi, q, h1⟩ := scanExtended_frame hy
    rcases connectExtended_frame hz with ⟨l', rfl⟩ | ⟨l', own, -, -, -, rfl⟩ <;> (rw [h1]; exact ⟨rfl, rfl⟩)
  | scanResponse adv sc d =>
    have hu := sameAdvs_update ah s.le adv
    cases h
    simp only [scanResponse]
    repeat' split
    all_goals first | exact ⟨rfl, rfl⟩ | exact hu | skip
    all_goals
      simp only [remember_le]
      exact hu
  | scan sc adv => cases h; exact sameAdvs_update ah s.le sc
  | connectComplete init adv q =>
    simp only [receive, incomingConnectComplete] at h
    split at h
    · cases h; exact ⟨rfl, rfl⟩
    obtain ⟨y, hy, hx⟩ := Res.bind_eq_ok h
    cases hx
    obtain ⟨last, -, -, ⟨i, h3⟩, -⟩ := handleConnection_cases hy
    simp only [h3]
    exact sameAdvs_update ah s.le adv
  | periodic p =>
    have hu := sameAdvs_update ah s.le p.adv
    simp only [receive, periodicPdu] at h
    split at h
    · cases h; exact ⟨rfl, rfl⟩
    split at h
    · cases h; exact ⟨rfl, rfl⟩
    split at h
    · split at h
      · cases h; exact hu
      · split at h
        · cases h
        · cases h; exact hu
    · cases h; exact hu
  | link a b c =>
    simp only [receive, incomingLink] at h
    split at h
    · cases h; exact ⟨rfl, rfl⟩
    split at h
    · cases h; exact ⟨rfl, rfl⟩
    · split at h
      · cases h
      · rename_i hr
        obtain ⟨-, rfl⟩ := removeConnection_cases hr
        cases h
        exact ⟨rfl, rfl⟩
    · cases h; exact ⟨rfl, rfl⟩

theorem taken_eq (out : List Out) : taken out = (connectedOf out).any fun e => e.2.role == .peripheral := by
  unfold taken connectedOf
  induction out with
  | nil => rfl
  | cons o out ih =>
    rw [List.any_cons, ih]
    cases o
    case connected k c => rfl
    all_goals rfl

theorem taken_step {ah : Hash} {cfg : Config} {rnd : Irk → Address} {now : Nat} {s : State} {p : Packet} {x : State × Obs}
    (hp : ∀ i a q, p ≠ .connect i a q) (h : step ah cfg s (.receive rnd now p) = .ok x) : taken x.2.out = false := by
  rw [taken_eq]
  cases step_conn h with
  | same _ _ _ h4 => rw [h4]; rfl
  | remove _ _ _ _ _ h4 => rw [h4]; rfl
  | add k c last _ _ _ _ h5 h6 =>
    rw [h5]
    rcases h6 with ⟨h6, -⟩ | ⟨-, h6⟩
    · exact absurd h6 (hp _ _ _)
    · simp [h6]

/-! ### The notes and the state -/

/-- The notes agree with the state. -/
structure Offered (cfg : Config) (s : State) (g : Offer) : Prop where
  air : Le.Tied g.air s.le
  data : AdvsOk cfg s.le.extAdv g.data

theorem tied_frame {g : Notes} {s t : Le.State} (h : Le.Tied g s) (h1 : t.randomAddress = s.randomAddress)
    (h2 : t.resolvingList.map RlEntry.content = s.resolvingList.map RlEntry.content) (h3 : SameAdvs s t) : Le.Tied g t :=
  ⟨by rw [h1]; exact h.random, fun a b => by rw [lookupKeys_content h2]; exact h.keys a b,
   by rw [h3.1]; exact h.legacy, by rw [h3.2]; exact h.sets⟩

theorem offered_initial (cfg : Config) (a : Option Address) : Offered cfg (initial a) (.initial a) :=
  ⟨Le.tied_initial a, advsOk_nil cfg⟩

/-- What is foretold of a tick. -/
theorem tick_foretold {cfg : Config} {now : Nat} {s : State} {g : Offer} {x : State × List Out} (hO : Offered cfg s g)
    (h : tick now s = .ok x) :
    Offered cfg x.1 { g with air := happened g.air (.tick now) } ∧
      ∃ l, Foretold g.air g.data now l ∧
        x.2 = l.map (advOut s.le.extAdv) ++ (if (scanning now s.le).2 then [.scanTimeout] else []) := by
  simp only [tick] at h
  split at h
  · cases h
  rename_i le out ha
  cases h
  have he : runEnv s.le (.tick now) = .ret (scanning now le).1 out := by
    simp only [runEnv, ha]
  obtain ⟨h1, h2⟩ := Le.tied_tick hO.air hO.data he
  have h3 := advsOk_step (cfg := cfg) (s := s.le) (s' := (scanning now le).1) (o := .env (.tick now)) (st := none) (out := out)
    hO.data (by simp only [Le.step, he])
  have hle : ∃ a b, le = { s.le with legacyAdv := a, extAdv := b } := by
    simp only [advertising] at ha
    split at ha
    · cases ha
    · cases ha; exact ⟨_, _, rfl⟩
  refine ⟨⟨h1, h3⟩, out, h2, ?_⟩
  obtain ⟨a, b, rfl⟩ := hle
  have : (scanning now { s.le with legacyAdv := a, extAdv := b }).2 = (scanning now s.le).2 := by
    unfold scanning; simp only; split <;> rfl
  simp only [this]

theorem offered_step {ah : Hash} {cfg : Config} {s : State} {o : Op} {x : State × Obs} {n : Ask} {g : Offer}
    (hT : Tied s n) (hO : Offered cfg s g) (hw : ∀ c, o = .cmd c → ¬ Torn (.cmd c) x.2.status)
    (h : step ah cfg s o = .ok x) : Offered cfg x.1 (g.note cfg.publicAddress o x.2) := by
  have h0 := h
  cases o with
  | cmd c =>
    simp only [step] at h
    obtain ⟨y, hy, h⟩ := Res.bind_eq_ok h
    cases h
    obtain ⟨le, hr, hx⟩ := command_cases hy
    have hle : y.1.le = le := by rw [hx]; split <;> rfl
    refine ⟨?_, ?_⟩
    · rw [hle]; exact Le.tied_cmd hT.1.keys hO.air hr (hw c rfl)
    · rw [hle]
      exact advsOk_step (o := .cmd c) (st := some y.2) (out := []) hO.data (by simp only [Le.step, hr])
  | tick now =>
    simp only [step] at h
    obtain ⟨y, hy, h⟩ := Res.bind_eq_ok h
    cases h
    exact (tick_foretold hO hy).1
  | receive rnd now p =>
    simp only [step] at h
    obtain ⟨y, hy, h⟩ := Res.bind_eq_ok h
    cases h
    have hl := receive_lists hy
    by_cases hp : ∀ i a q, p ≠ .connect i a q
    · have ha := receive_advs hp hy
      have ht : taken y.2 = false := taken_step hp h0
      simp only [Offer.note, ht, Bool.false_eq_true, if_false]
      exact ⟨tied_frame hO.air hl.1 hl.3 ha, by simp only [ha.2]; exact hO.data⟩
    · simp only [Classical.not_forall, ne_eq, Classical.not_not] at hp
      obtain ⟨i, a, q, rfl⟩ := hp
      rcases connect_cases h0 with ⟨h1, ⟨r, h2⟩, -⟩ | ⟨k, -, h2, -, h4, h5⟩ | ⟨k, e, b, h1, -, h2, -, h4, h5, -⟩
      · have h1 : y.2 = [] := h1
        simp only [Offer.note, h1, taken, List.any_nil, Bool.false_eq_true, if_false]
        have ha : SameAdvs s.le y.1.le := by
          have h2 : y.1 = _ := h2
          rw [h2]; exact ⟨rfl, rfl⟩
        exact ⟨tied_frame hO.air hl.1 hl.3 ha, by simp only [ha.2]; exact hO.data⟩
      · have h2 : y.2 = _ := h2
        have h4 : y.1.le.legacyAdv = _ := h4
        have h5 : y.1.le.extAdv = _ := h5
        have hn : g.note cfg.publicAddress (.receive rnd now (.connect i a q)) ⟨none, y.2⟩ =
            { g with air := happened g.air .legacyConnected } := by
          simp only [Offer.note, h2]; rfl
        rw [hn]
        refine ⟨⟨?_, fun t b => ?_, ?_, ?_⟩, ?_⟩
        · simp only [hl.1]; exact hO.air.random
        · simp only [lookupKeys_content hl.3]; exact hO.air.keys t b
        · simp only [h4]
          exact { hO.air.legacy with off := fun _ => rfl, on := fun _ h => (nomatch h) }
        · simp only [h5]; exact hO.air.sets
        · simp only [h5]; exact hO.data
      · have h2 : y.2 = _ := h2
        have h4 : y.1.le.extAdv = _ := h4
        have h5 : y.1.le.legacyAdv = _ := h5
        have hn : g.note cfg.publicAddress (.receive rnd now (.connect i a q)) ⟨none, y.2⟩ =
            { g with air := happened g.air (.extendedConnected e) } := by
          simp only [Offer.note, h2]; rfl
        have hf : mapFind s.le.extAdv e = some b := mapFind_mem hO.data.keys h1
        have henv : runEnv s.le (.extendedConnected e) = .ret { s.le with extAdv := mapSet s.le.extAdv e { b with enable := false } } [] := by
          simp only [runEnv, hf]
        have g1 := Le.tied_env hO.air hO.data henv
        have g2 := advsOk_step (cfg := cfg) (s := s.le)
          (s' := { s.le with extAdv := mapSet s.le.extAdv e { b with enable := false } })
          (o := .env (.extendedConnected e)) (st := none) (out := []) hO.data
          (by simp only [Le.step, henv])
        rw [hn]
        refine ⟨⟨?_, fun t b => ?_, ?_, ?_⟩, ?_⟩
        · simp only [hl.1]; exact g1.random
        · simp only [lookupKeys_content hl.3]; exact g1.keys t b
        · simp only [h5]; exact g1.legacy
        · simp only [h4]; exact g1.sets
        · simp only [h4]; exact g2
  | sendAcl a b c d =>
    simp only [step, handleAcl] at h
    obtain ⟨y, hy, h⟩ := Res.bind_eq_ok h
    cases h
    split at hy
    · cases hy
    split at hy <;> (cases hy; exact hO)
  | disconnect a b c =>
    simp only [step, disconnect] at h
    obtain ⟨y, hy, h⟩ := Res.bind_eq_ok h
    cases h
    split at hy
    · cases hy; exact hO
    split at hy
    · cases hy
    · rename_i hr
      obtain ⟨-, rfl⟩ := removeConnection_cases hr
      cases hy
      exact ⟨hO.air, hO.data⟩
  | reset => cases h; exact offered_initial cfg none

theorem offered_run {ah : Hash} {cfg : Config} : ∀ {ops : List Op} {s t t' : State} {n m : Ask} {g g' : Offer},
    Tied s n → Offered cfg s g → Whole ah cfg ops s → runAsk ah cfg ops s n = .ok (t, m) →
    runOffer ah cfg ops s g = .ok (t', g') → t' = t ∧ Tied t m ∧ Offered cfg t g'
  | [], _, _, _, _, _, _, _, hT, hO, _, h, h' => by cases h; cases h'; exact ⟨rfl, hT, hO⟩
  | _ :: _, _, _, _, _, _, _, _, hT, hO, hw, h, h' => by
    simp only [runAsk] at h
    simp only [runOffer] at h'
    simp only [Whole] at hw
    obtain ⟨y, hy, h⟩ := Res.bind_eq_ok h
    obtain ⟨y', hy', h'⟩ := Res.bind_eq_ok h'
    rw [hy] at hy' hw
    cases hy'
    exact offered_run (tied_step hT hy) (offered_step hT hO hw.1 hy) hw.2 h h'

/-! ### Reading the notes -/

theorem falContains_notes {s : Le.State} {n : Ask} (h : TiedLists s n) (r : AddressWithType) :
    falContains s r = decide (0 < n.accept (kindOf r) r.address) := by
  rw [Bool.eq_iff_iff, falContains_iff, listed_iff h, decide_eq_true_iff]; rfl

theorem mayScan_eq {s : Le.State} {n : Ask} (h : TiedLists s n) (p : AdvertisingFilterPolicy) (r : AddressWithType) :
    scanPolicyAccepts s p r = n.mayScan p r := by
  cases p <;> simp only [scanPolicyAccepts, Ask.mayScan, falContains_notes h]

theorem peerDevice_eq (a : Address) (t : PeerAddressType) : peerDeviceAddress a t = deviceOf t a := by
  cases t <;> rfl

theorem mayConnect_eq {s : Le.State} {n : Ask} (h : TiedLists s n) (d : Bool) (a : Address) (t : PeerAddressType)
    (p : AdvertisingFilterPolicy) (r : AddressWithType) :
    connectAccepts s d a t p r = if d then decide (r = deviceOf t a) else n.mayConnect p r := by
  unfold connectAccepts
  rw [peerDevice_eq]
  cases d
  · cases p <;> simp [Ask.mayConnect, falContains_notes h]
  · simp [Bool.beq_eq_decide_eq]

theorem legacy_uses {n : LegacyNotes} {a : LegacyAdv} (h : LegacyTied n a) (adv : AddressWithType) :
    n.uses adv = (a.enable && decide (a.advertisingAddress = adv)) := by
  unfold LegacyNotes.uses
  cases hr : n.running with
  | none => rw [h.off hr]; rfl
  | some r => obtain ⟨h1, h2, -⟩ := h.on r hr; rw [h1, h2]; simp

theorem set_uses {m : SetNotes} {a : ExtAdv} (h : SetTied m a) (adv : AddressWithType) :
    m.uses adv = (a.enable && decide (a.advertisingAddress = adv)) := by
  unfold SetNotes.uses
  rw [h.adv]
  cases hr : m.running with
  | none => rw [h.off hr]; rfl
  | some r => rw [(h.on r hr).1]; rfl

theorem legacyScanned_eq {s : Le.State} {n : Ask} {m : LegacyNotes} (hl : TiedLists s n) (h : LegacyTied m s.legacyAdv)
    (scanner r adv : AddressWithType) :
    legacyScanned s scanner r adv = if m.answers n r adv then [.send (.scanResponse adv scanner.address m.response)] else [] := by
  unfold legacyScanned
  have hc : (s.legacyAdv.enable && legacyScannable s.legacyAdv && adv == s.legacyAdv.advertisingAddress &&
      scanPolicyAccepts s s.legacyAdv.filterPolicy r) = m.answers n r adv := by
    unfold LegacyNotes.answers
    rw [legacy_uses h, mayScan_eq hl, h.policy, Bool.eq_iff_iff]
    have ht := h.type
    simp only [legacyScannable, ht, Bool.and_eq_true, decide_eq_true_iff, beq_iff_eq, bne_iff_ne,
      eq_comm (a := adv)]
    cases m.type <;> simp [and_assoc]
  rw [hc, h.response]

theorem extScanned_eq {s : Le.State} {n : Ask} {m : SetNotes} {a : ExtAdv} (hl : TiedLists s n) (h : SetTied m a)
    (scanner r adv : AddressWithType) :
    extScanned s a scanner r adv = if m.answers n r adv then [.send (.scanResponse adv scanner.address a.scanResponse)] else [] := by
  unfold extScanned
  have hc : (a.enable && a.properties.scannable && adv == a.advertisingAddress &&
      scanPolicyAccepts s a.filterPolicy r && !(a.properties.directed && a.targetAddress != r)) = m.answers n r adv := by
    unfold SetNotes.answers
    rw [set_uses h, mayScan_eq hl, h.policy, h.properties, h.target, Bool.eq_iff_iff]
    simp only [Bool.and_eq_true, decide_eq_true_iff, beq_iff_eq, Bool.not_and, bne, Bool.not_not, Bool.or_eq_true, eq_comm (a := adv)]
    constructor
    · rintro ⟨⟨⟨⟨h1, h2⟩, h3⟩, h4⟩, h5⟩; exact ⟨⟨⟨⟨h1, h3⟩, h2⟩, h4⟩, h5⟩
    · rintro ⟨⟨⟨⟨h1, h3⟩, h2⟩, h4⟩, h5⟩; exact ⟨⟨⟨⟨h1, h2⟩, h3⟩, h4⟩, h5⟩
  rw [hc]

theorem legacyTakes_notes {s : Le.State} {n : Ask} {m : LegacyNotes} (hl : TiedLists s n) (h : LegacyTied m s.legacyAdv)
    (r adv : AddressWithType) : LegacyTakes s adv r ↔ m.accepts n r adv = true := by
  rw [legacyTakes_iff, mayConnect_eq hl]
  unfold LegacyNotes.accepts
  rw [legacy_uses h]
  have ht := h.type
  simp only [legacyConnectable, legacyDirected, ht, h.policy, h.peer, h.peerType, Bool.and_eq_true, decide_eq_true_iff]
  cases m.type <;> simp [and_assoc]

theorem setTakes_notes {s : Le.State} {n : Ask} {m : SetNotes} {a : ExtAdv} (hl : TiedLists s n) (h : SetTied m a)
    (r adv : AddressWithType) : SetTakes s a adv r ↔ m.accepts n r adv = true := by
  unfold SetTakes
  rw [← connectAccepts_iff, mayConnect_eq hl]
  unfold SetNotes.accepts
  rw [set_uses h, h.properties, h.policy, h.peer, h.peerType]
  simp only [Bool.and_eq_true, decide_eq_true_iff]
  constructor
  · rintro ⟨h1, h2, h3, h4⟩; exact ⟨⟨⟨h1, h3⟩, h2⟩, h4⟩
  · rintro ⟨⟨⟨h1, h3⟩, h2⟩, h4⟩; exact ⟨h1, h2, h3, h4⟩

theorem flatMap_mem {α β : Type} {f g : α → List β} : ∀ {l : List α}, (∀ a ∈ l, f a = g a) → l.flatMap f = l.flatMap g
  | [], _ => rfl
  | a :: l, h => by
    rw [List.flatMap_cons, List.flatMap_cons, h a (List.mem_cons_self ..), flatMap_mem fun b hb => h b (List.mem_cons_of_mem _ hb)]

theorem mapFind_some_mem {κ α : Type} [DecidableEq κ] {m : List (κ × α)} {k : κ} {a : α} (h : mapFind m k = some a) : (k, a) ∈ m := by
  induction m with
  | nil => cases h
  | cons e m ih =>
    obtain ⟨k', b⟩ := e
    rw [mapFind_cons] at h
    split at h
    · rename_i hk
      cases h; subst hk; exact List.mem_cons_self ..
    · exact List.mem_cons_of_mem _ (ih h)

theorem sets_keys {cfg : Config} {s : State} {g : Offer} (hO : Offered cfg s g) (h : UInt8) :
    h ∈ s.le.extAdv.map (·.1) ↔ (g.air.sets h).isSome = true := by
  have hs := hO.air.sets h
  cases hf : mapFind s.le.extAdv h with
  | none =>
    rw [hf] at hs
    have h1 := mapFind_none.1 hf
    cases hg : g.air.sets h with
    | none => exact ⟨fun h2 => absurd h2 h1, nofun⟩
    | some m => rw [hg] at hs; exact hs.elim
  | some a =>
    rw [hf] at hs
    obtain ⟨m, hm, -⟩ := hs.some_right
    rw [hm]
    refine ⟨fun _ => rfl, fun _ => ?_⟩
    by_cases hmem : h ∈ s.le.extAdv.map (·.1)
    · exact hmem
    · rw [mapFind_none.2 hmem] at hf; cases hf

theorem answers_scan {ah : Hash} {cfg : Config} {s : State} {n : Ask} {g : Offer} (hT : Tied s n) (hO : Offered cfg s g)
    {scanner adv r : AddressWithType} (hr : n.identity ah scanner r) :
    g.Answers n r scanner adv (incomingScan ah s scanner adv).2 := by
  have hid : resolved ah s.le scanner = r := (identity_iff _ _ _ _).2 ((identifies_iff hT.1 scanner r).2 hr)
  have hu := sameLists_update ah s.le scanner
  have ha := sameAdvs_update ah s.le scanner
  have hl : TiedLists (resolveUpdate ah s.le scanner) n := hT.1.same hu.1 hu.2 hu.3 hu.4 rfl rfl rfl rfl
  refine ⟨s.le.extAdv.map (·.1), hO.data.keys, sets_keys hO, ?_⟩
  simp only [incomingScan, hid]
  rw [legacyScanned_eq hl (m := g.air.legacy) (by rw [ha.1]; exact hO.air.legacy), ha.2, List.flatMap_map]
  congr 1
  apply flatMap_mem
  rintro ⟨h, a⟩ he
  have hf := mapFind_mem hO.data.keys he
  have hs := hO.air.sets h
  have hd := hO.data.entries h
  rw [hf] at hs hd
  obtain ⟨m, hm, hma⟩ := hs.some_right
  simp only [hm, Option.any_some]
  rw [extScanned_eq hl hma, hd.2.scan.1]

theorem advOut_notes {cfg : Config} {s : State} {g : Offer} (hO : Offered cfg s g) (o : AdvOut) :
    advOut s.le.extAdv o = onAir g.air o := by
  cases o
  case extendedPdu h adv target c sc di sid i d =>
    simp only [advOut, onAir]
    have hs := hO.air.sets h
    cases hf : mapFind s.le.extAdv h with
    | none =>
      rw [hf] at hs
      cases hg : g.air.sets h with
      | none => rfl
      | some m => rw [hg] at hs; exact hs.elim
    | some a =>
      rw [hf] at hs
      obtain ⟨m, hm, hma⟩ := hs.some_right
      rw [hm]
      simp only [Option.getD_some, Option.map_some, SetNotes.phys, hma.phys.1, hma.phys.2]
      cases m.params.primaryPhy <;> cases m.params.secondaryPhy <;> rfl
  case legacyPdu x t adv target d => cases t <;> rfl
  all_goals rfl

theorem scanEnds_eq {s : State} {n : Ask} (hT : Tied s n) (now : Nat) : (scanning now s.le).2 = n.scanEnds now := by
  have h6 := hT.2.6
  unfold Ask.scanEnds
  cases hn : n.scan with
  | none =>
    rw [hn] at h6
    unfold scanning
    rw [if_pos h6]; rfl
  | some r =>
    rw [hn] at h6
    obtain ⟨k1, -, -, -, k5, -, -, -⟩ := h6
    have hne : ¬ s.le.scanner.enable = false := by rw [k1]; exact nofun
    unfold scanning
    rw [if_neg hne]
    simp only [Option.any_some, Scan.tick]
    by_cases hp : r.period = 0
    · obtain ⟨t1, t2⟩ := k5.1 hp
      rw [if_pos hp, t1, t2]
      by_cases hd : r.duration = 0
      · rw [if_pos hd, if_neg (fun h => h.1 hd)]; rfl
      · rw [if_neg hd]
        by_cases hd2 : r.since + r.duration ≤ now
        · rw [if_pos ⟨hd, hd2⟩]; simp [hd2]
        · rw [if_neg (fun h => hd2 h.2)]; simp [hd2]
    · obtain ⟨t1, t2, t3, t4, t5⟩ := k5.2 hp
      rw [if_neg hp, t4]
      simp only [Option.isNone_some, Bool.and_false]
      split <;> rfl

theorem runOffer_exists {ah : Hash} {cfg : Config} : ∀ {ops : List Op} {s t : State} {obs : List Obs} (g : Offer),
    run ah cfg ops s = .ok (t, obs) → ∃ g', runOffer ah cfg ops s g = .ok (t, g')
  | [], _, _, _, g, h => by cases h; exact ⟨g, rfl⟩
  | o :: os, s, t, obs, g, h => by
    simp only [run] at h
    obtain ⟨y, hy, h⟩ := Res.bind_eq_ok h
    obtain ⟨z, hz, h⟩ := Res.bind_eq_ok h
    cases h
    obtain ⟨g', hg⟩ := runOffer_exists (g.note cfg.publicAddress o y.2) hz
    exact ⟨g', by simp only [runOffer, hy]; exact hg⟩

end Verif.Ll
