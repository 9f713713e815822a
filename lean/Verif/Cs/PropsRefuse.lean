import Verif.Cs.SpecRefuse
import Verif.Cs.PropsPeer

/-! # C103: channel sounding commands are refused for the stated reasons -/
namespace Verif.Cs

theorem tb0 (n : Nat) : n.testBit 0 = decide (n % 2 = 1) := by
  rw [Nat.testBit_eq_decide_div_mod_eq]; simp
theorem tb1 (n : Nat) : n.testBit 1 = decide ((n / 2) % 2 = 1) := by
  rw [Nat.testBit_eq_decide_div_mod_eq]
theorem tb2 (n : Nat) : n.testBit 2 = decide ((n / 4) % 2 = 1) := by
  rw [Nat.testBit_eq_decide_div_mod_eq]

theorem noFae_eq (e : End) : noFae e = peerLacksTable e := by
  unfold noFae peerLacksTable
  cases e.remote <;> simp [tb1]

theorem rtt_eq (c : Caps) (n : Nat) : rttOk c n = canMeasure c n := by
  unfold rttOk canMeasure
  rcases n with _ | _ | _ | _ | _ | _ | _ | n <;> simp

theorem phy_eq (c : Caps) (n : Nat) : phyOk c n = canSync c n := by
  unfold phyOk canSync
  rcases n with _ | _ | _ | _ | n <;> simp [tb1, tb2]

theorem main_eq (c : Caps) (n : Nat) : mainOk c n = canMode c n := by
  unfold mainOk canMode
  rcases n with _ | _ | _ | _ | n <;> simp

theorem sub_eq (c : Caps) (n : Nat) : subOk c n = (n == 255 || canMode c n) := by
  unfold subOk canMode
  by_cases h : n = 255
  · subst h; simp
  · rcases n with _ | _ | _ | _ | n <;> simp_all

theorem ite_or {a b : Prop} [Decidable a] [Decidable b] (c x : Nat) : (if a then c else if b then c else x) = if a ∨ b then c else x := by
  by_cases ha : a <;> by_cases hb : b <;> simp [ha, hb]

theorem settings_chain (s : Settings) (reserved x : Nat) :
    (if s.main ≠ 1 ∧ s.main ≠ 2 ∧ s.main ≠ 3 then 0x12
    else if s.sub ≠ 0xFF ∧ s.sub ≠ 1 ∧ s.sub ≠ 2 ∧ s.sub ≠ 3 then 0x12
    else if s.mainRepetition > 3 then 0x12
    else if s.mode0 < 1 ∨ s.mode0 > 3 then 0x12
    else if s.repetition < 1 then 0x12
    else if s.selection = 1 ∧ ¬(s.shape = 0 ∨ s.shape = 1) then 0x12
    else if s.selection = 1 ∧ (s.jump < 2 ∨ s.jump > 8) then 0x12
    else if s.sub ≠ 0xFF ∧ (s.minSteps < 1 ∨ s.maxSteps < 1 ∨ s.maxSteps < s.minSteps) then 0x12
    else if mapOk createMask s.map = false then 0x12
    else if ¬(s.sub = 0xFF ∨ (s.main = 2 ∧ s.sub = 1) ∨ (s.main = 2 ∧ s.sub = 3) ∨ (s.main = 3 ∧ s.sub = 2)) then 0x12
    else if reserved ≠ 0 then 0x12 else x) = if badSettings s reserved then (0x12 : Nat) else x := by
  have em : mapOk createMask s.map = decide (AlmostUsable s.map) := by
    have := create_map s.map
    cases h : mapOk createMask s.map <;> simp_all
  rw [em]
  have hb : badSettings s reserved = true ↔
      ((s.main ≠ 1 ∧ s.main ≠ 2 ∧ s.main ≠ 3) ∨ (s.sub ≠ 0xFF ∧ s.sub ≠ 1 ∧ s.sub ≠ 2 ∧ s.sub ≠ 3) ∨ s.mainRepetition > 3 ∨
        (s.mode0 < 1 ∨ s.mode0 > 3) ∨ s.repetition < 1 ∨ (s.selection = 1 ∧ ¬(s.shape = 0 ∨ s.shape = 1)) ∨
        (s.selection = 1 ∧ (s.jump < 2 ∨ s.jump > 8)) ∨ (s.sub ≠ 0xFF ∧ (s.minSteps < 1 ∨ s.maxSteps < 1 ∨ s.maxSteps < s.minSteps)) ∨
        decide (AlmostUsable s.map) = false ∨
        ¬(s.sub = 0xFF ∨ (s.main = 2 ∧ s.sub = 1) ∨ (s.main = 2 ∧ s.sub = 3) ∨ (s.main = 3 ∧ s.sub = 2)) ∨ reserved ≠ 0) := by
    simp only [badSettings, goTogether, Bool.or_eq_true, Bool.and_eq_true, Bool.not_eq_true', bne_iff_ne, beq_iff_eq, decide_eq_false_iff_not,
      List.mem_cons, List.not_mem_nil, or_false, Prod.mk.injEq, Bool.or_eq_false_iff, Bool.and_eq_false_iff, beq_eq_false_iff_ne]
    generalize AlmostUsable s.map = A
    by_cases hA : A
    · simp only [hA, not_true_eq_false, or_false, false_or]; omega
    · simp only [hA, not_false_eq_true, true_or, or_true]
  rw [ite_or, ite_or, ite_or, ite_or, ite_or, ite_or, ite_or, ite_or, ite_or, ite_or]
  refine ite_congr (propext ?_) (fun _ => rfl) (fun _ => rfl)
  rw [hb]
  simp only [or_assoc]

theorem beyond_chain (c r : Caps) (id role : Nat) (s : Settings) :
    (if id ≥ c.numConfig ∨ id ≥ r.numConfig then 0x11
    else if c.roles.testBit role = false ∨ r.roles.testBit (if role = 0 then 1 else 0) = false then 0x11
    else if mainOk c s.main = false ∨ mainOk r s.main = false then 0x11
    else if subOk c s.sub = false ∨ subOk r s.sub = false then 0x11
    else if rttOk c s.rtt = false ∨ rttOk r s.rtt = false then 0x11
    else if phyOk c s.phy = false ∨ phyOk r s.phy = false then 0x11
    else if s.selection ≠ 1 then 0x11 else 0) = if beyond c r id role s then (0x11 : Nat) else 0 := by
  rw [ite_or, ite_or, ite_or, ite_or, ite_or, ite_or]
  refine ite_congr (propext ?_) (fun _ => rfl) (fun _ => rfl)
  simp only [main_eq, sub_eq, rtt_eq, phy_eq, beyond, opposite, Bool.or_eq_true, Bool.and_eq_true, Bool.not_eq_true', bne_iff_ne,
    decide_eq_true_eq, Bool.or_eq_false_iff, beq_eq_false_iff_ne, ge_iff_le, or_assoc, and_or_left]

theorem createCheck_eq (e : End) (id context role : Nat) (s : Settings) (reserved : Nat) (hr : role ≤ 1) :
    createCheck e id context role s reserved = firstOf (reasons e (.createConfig id context role s reserved)) := by
  unfold createCheck
  cases hm : e.remote with
  | none => simp [reasons, firstOf, hm]
  | some r =>
    have e1 := beyond_chain e.caps r id role s
    have e2 := settings_chain s reserved (if beyond e.caps r id role s then (0x11 : Nat) else 0)
    rw [← e1] at e2
    simp only [Status.invalidParameters, Status.unsupportedFeature, Status.success] at *
    rw [e2, e1]
    have e3 : (if role = 0 then 0 else 1) = role := by split <;> omega
    rw [e3]
    simp only [reasons, firstOf, hm, Option.isNone_some, Bool.false_eq_true, if_false, Option.elim_some, Bool.not_eq_true', decide_eq_false_iff_not,
      Nat.not_le]
    have e4 : (¬(context = 0 ∨ context = 1)) ↔ 1 < context := by omega
    simp only [e4, gt_iff_lt]

/-- What a command does, given the reasons to refuse it. -/
def Outcome (e : End) (x : Cmd) (r : Res) : Prop :=
  (firstOf (reasons e x) ≠ 0 → r = .ok (firstOf (reasons e x)) e [] []) ∧
  (firstOf (reasons e x) = 0 → ∃ out ev, r = .ok 0 (left e x) out ev ∧ Asks e x out ∧ Tells e x ev)

theorem out_refuse {e : End} {x : Cmd} {st : Nat} (h : firstOf (reasons e x) = st) (h0 : st ≠ 0) : Outcome e x (refuse e st) :=
  ⟨fun _ => by rw [h]; rfl, fun h1 => absurd (h.symm.trans h1) h0⟩

theorem out_ok {e e' : End} {x : Cmd} {out : List Pdu} {ev : List Ev} (h : firstOf (reasons e x) = 0) (he : e' = left e x) (ha : Asks e x out)
    (ht : Tells e x ev) : Outcome e x (.ok 0 e' out ev) :=
  ⟨fun h1 => absurd h h1, fun _ => ⟨out, ev, by rw [he], ha, ht⟩⟩

theorem early_eq (c : Option Nat) (now : Nat) : tooEarly c now = c.elim false (fun t => decide (now < t + 1000000000)) := by
  cases c with
  | none => rfl
  | some t =>
    rw [Option.elim_some]
    simp only [tooEarly]

theorem outcome (e : End) (x : Cmd) (hx : x.wellFormed) : Outcome e x (command e x) := by
  cases x with
  | encrypt => exact out_ok rfl rfl .encrypt (.none _ nofun nofun nofun)
  | readCaps =>
    simp only [command, readCaps]
    split
    · rename_i h
      refine out_refuse ?_ (by decide)
      rcases h with h | h
      · simp [reasons, firstOf, h]
      · cases hs : e.hostSupport <;> simp [reasons, firstOf, h, hs]
    · rename_i h
      simp only [not_or] at h
      have hz : firstOf (reasons e .readCaps) = 0 := by
        cases hs : e.hostSupport <;> simp_all [reasons, firstOf]
      split
      · rename_i hr
        exact out_ok hz rfl (.capsKnown hr) (.caps hr)
      · rename_i hr
        exact out_ok hz rfl (.caps (by simpa using hr)) (.later (by simpa using hr))
  | setDefaults roles antenna =>
    simp only [command, setDefaults]
    split
    · rename_i h
      refine out_refuse ?_ (by decide)
      obtain ⟨rfl, h⟩ := h
      cases hc : e.configs <;> simp_all [reasons, firstOf]
    · rename_i h
      have h1 : (roles == 0 && !e.configs.isEmpty) = false := by
        cases hc : e.configs <;> simp_all
      split
      · rename_i h2
        refine out_refuse ?_ (by decide)
        simp [reasons, firstOf, h1, h2]
      · rename_i h2
        have h2' : roles &&& e.caps.roles = roles := Decidable.of_not_not h2
        split
        · rename_i h3
          split
          · rename_i h4
            refine out_refuse ?_ (by decide)
            have h5 : antenna ≤ 4 := h3.2
            have : firstOf (reasons e (.setDefaults roles antenna)) = if (!(antenna ∈ [1, 2, 3, 4, 253, 254, 255])) then 0x11 else 0x11 := by
              simp [reasons, firstOf, h1, h2', h5, h4]
            rw [this]; split <;> rfl
          · rename_i h4
            refine out_ok ?_ rfl (.defaults _ _) (.none _ nofun nofun nofun)
            have h5 : antenna = 1 ∨ antenna = 2 ∨ antenna = 3 ∨ antenna = 4 := by omega
            have h6 : ¬ e.caps.antennas < antenna := h4
            have h7 : antenna ∈ [1, 2, 3, 4, 253, 254, 255] := by simp only [List.mem_cons]; omega
            have h8 : (decide (antenna ≤ 4) && decide (e.caps.antennas < antenna)) = false := by simp [h6]
            simp only [reasons, firstOf, h1, h7, h8]
            simp [h2']
        · rename_i h3
          split
          · rename_i h4
            refine out_ok ?_ rfl (.defaults _ _) (.none _ nofun nofun nofun)
            rcases h4 with rfl | rfl | rfl <;> simp_all [reasons, firstOf]
          · rename_i h4
            refine out_refuse ?_ (by decide)
            have : antenna ∉ [1, 2, 3, 4, 253, 254, 255] := by
              simp only [List.mem_cons, List.not_mem_nil, or_false]; omega
            simp only [reasons, firstOf, h1, this]
            simp [h2']
  | readFae =>
    simp only [command, readFae, noFae_eq]
    split
    · rename_i h; exact out_refuse (by simp [reasons, firstOf, h]) (by decide)
    · rename_i h
      split
      · rename_i h2; exact out_refuse (by simp [reasons, firstOf, h, h2]) (by decide)
      · rename_i h2
        have hz : firstOf (reasons e .readFae) = 0 := by simp [reasons, firstOf, h, h2]
        split
        · rename_i t ht; exact out_ok hz rfl (.tableKnown (by simp [ht])) (.table t ht)
        · rename_i ht; exact out_ok hz rfl (.table ht) (.tableLater ht)
  | writeFae t =>
    simp only [command, writeFae, noFae_eq]
    repeat' split
    · rename_i h; exact out_refuse (by simp [reasons, firstOf, h]) (by decide)
    · rename_i h h1; exact out_refuse (by simp [reasons, firstOf, h, h1]) (by decide)
    · rename_i h h1 h2; exact out_refuse (by cases hc : e.configs <;> simp_all [reasons, firstOf]) (by decide)
    · rename_i h h1 h2; exact out_ok (by simp_all [reasons, firstOf]) rfl (.writeTable t) (.none _ nofun nofun nofun)
  | writeCaps c =>
    simp only [command, writeCaps]
    repeat' split
    · rename_i h; exact out_refuse (by simp [reasons, firstOf, h]) (by decide)
    · rename_i h h1; exact out_refuse (by simp [reasons, firstOf, h, h1]) (by decide)
    · rename_i h h1 h2; exact out_refuse (by cases hc : e.configs <;> simp_all [reasons, firstOf]) (by decide)
    · rename_i h h1 h2; exact out_ok (by simp_all [reasons, firstOf]) rfl (.writeCaps c) (.none _ nofun nofun nofun)
  | createConfig id context role s reserved =>
    simp only [command, createConfig]
    have hq := createCheck_eq e id context role s reserved hx
    split
    · rename_i h; exact out_refuse hq.symm h
    · rename_i h
      have hz := hq.symm.trans (Decidable.of_not_not h)
      split
      · rename_i h1; subst h1; exact out_ok hz rfl (.create ..) (.createLater ..)
      · rename_i h1
        have h0 : context = 0 := by
          by_cases hc : context ≤ 1
          · omega
          · exfalso
            revert hz
            simp only [reasons, firstOf, hc]
            cases e.remote <;> simp
            repeat' split
            all_goals simp
        subst h0; exact out_ok hz rfl (.createAlone ..) (.create ..)
  | classify now m =>
    simp only [command, classify]
    have hm : mapOk classMask m = decide (Usable m) := by
      have := class_map m
      cases h : mapOk classMask m <;> simp_all
    have hr : firstOf (reasons e (.classify now m)) =
        if tooEarly e.classified now = true then 0x0C else if mapOk classMask m = false then 0x12 else 0 := by
      rw [early_eq, hm]
      simp only [reasons, firstOf, Bool.not_eq_true']
    by_cases h : tooEarly e.classified now = true
    · rw [if_pos h] at hr ⊢; exact out_refuse hr (by decide)
    · rw [if_neg h] at hr ⊢
      by_cases h1 : mapOk classMask m = false
      · rw [if_pos h1] at hr ⊢; exact out_refuse hr (by decide)
      · rw [if_neg h1] at hr ⊢; exact out_ok hr rfl (.classify now m) (.none _ nofun nofun nofun)
  | removeConfig id =>
    have hf : find e.configs id = e.config id := rfl
    simp only [command, removeConfig, hf]
    split
    · rename_i h; exact out_refuse (by simp [reasons, firstOf, h]) (by decide)
    · rename_i h; exact out_ok (by simp [reasons, firstOf, h]) rfl (.remove id) (.none _ nofun nofun nofun)
  | securityEnable =>
    simp only [command, securityEnable]
    repeat' split
    · rename_i h; exact out_refuse (by simp [reasons, firstOf, h]) (by decide)
    · rename_i h h1; exact out_refuse (by simp [reasons, firstOf, h, h1]) (by decide)
    · rename_i h h1 h2; exact out_refuse (by simp [reasons, firstOf, h, h1, h2]) (by decide)
    · rename_i h h1 h2; exact out_ok (by simp [reasons, firstOf, h, h1, h2]) rfl .security (.none _ nofun nofun nofun)
  | setParameters id p =>
    have hf : find e.configs id = e.config id := rfl
    have hphy : procPhyOk e.caps p.phy = (p.phy == 1 || p.phy == 2 && e.caps.phys.testBit 2 || p.phy == 3 && e.caps.phys.testBit 3) := by
      unfold procPhyOk
      by_cases h1 : p.phy = 1
      · simp [h1]
      · by_cases h2 : p.phy = 2
        · simp [h2]
        · by_cases h3 : p.phy = 3 <;> simp [h1, h2, h3]
    simp only [command, setParameters, hf, hphy]
    split
    · rename_i h; exact out_refuse (by simp [reasons, firstOf, h]) (by decide)
    · rename_i c h
      have key : ∀ b : Bool, (1250 ≤ p.minSubevent ∧ p.minSubevent ≤ p.maxSubevent ∧ p.maxSubevent < 4000000 ↔ b = true) →
          firstOf (reasons e (.setParameters id p)) = if c.enabled then 0x0C else if b = false then 0x0D else if ¬ p.antenna < e.caps.antennas then 0x0D
            else if (p.phy == 1 || p.phy == 2 && e.caps.phys.testBit 2 || p.phy == 3 && e.caps.phys.testBit 3) = false then 0x0D else 0 := by
        intro b hb
        have : (1250 ≤ p.minSubevent && p.minSubevent ≤ p.maxSubevent && p.maxSubevent < 4000000 : Bool) = b := by
          rw [Bool.eq_iff_iff, ← hb]
          simp only [Bool.and_eq_true, decide_eq_true_eq, and_assoc]
        simp only [reasons, firstOf, h, Option.isNone_some, Bool.false_eq_true, if_false, Option.elim_some, this, Bool.not_eq_true', decide_eq_false_iff_not]
      repeat' split
      · rename_i h1; exact out_refuse (by rw [key _ decide_eq_true_iff.symm, if_pos h1]) (by decide)
      · rename_i h1 h2; exact out_refuse (by rw [key false (by simp; omega), if_neg h1]; rfl) (by decide)
      · rename_i h1 h2 h3; exact out_refuse (by rw [key false (by simp; omega), if_neg h1]; rfl) (by decide)
      · rename_i h1 h2 h3 h4; exact out_refuse (by rw [key false (by simp; omega), if_neg h1]; rfl) (by decide)
      · rename_i h1 h2 h3 h4 h5
        exact out_refuse (by rw [key true (by simp; omega), if_neg h1, if_neg (by decide), if_pos (by omega)]) (by decide)
      · rename_i h1 h2 h3 h4 h5 h6
        exact out_refuse (by rw [key true (by simp; omega), if_neg h1, if_neg (by decide), if_neg (by omega), if_pos h6]) (by decide)
      · rename_i h1 h2 h3 h4 h5 h6
        exact out_ok (by rw [key true (by simp; omega), if_neg h1, if_neg (by decide), if_neg (by omega), if_neg h6]) rfl (.parameters id p)
          (.none _ nofun nofun nofun)
  | procedureEnable id on =>
    have hf : find e.configs id = e.config id := rfl
    simp only [command, procedureEnable, hf]
    split
    · rename_i h; exact out_refuse (by simp [reasons, firstOf, h]) (by decide)
    · rename_i c h
      split
      · rename_i h1; exact out_refuse (by simp [reasons, firstOf, h, h1]) (by decide)
      · rename_i p h1
        repeat' split
        · rename_i h2; exact out_refuse (by simp [reasons, firstOf, h, h1, h2]) (by decide)
        · rename_i h2 h3; subst h3; exact out_ok (by simp [reasons, firstOf, h, h1, h2]) rfl (.start id c p h h1) (.none _ nofun nofun nofun)
        · rename_i h2 h3
          have : on = false := by simpa using h3
          subst this; exact out_ok (by simp [reasons, firstOf, h, h1, h2]) rfl (.stop id) (.none _ nofun nofun nofun)

/-- A refused command has the code of the first reason that applies to it. It changes nothing, asks the peer nothing and causes
no event. -/
theorem C103_refused (e : End) (x : Cmd) (hx : x.wellFormed) (h : firstOf (reasons e x) ≠ 0) :
    command e x = .ok (firstOf (reasons e x)) e [] [] := (outcome e x hx).1 h

/-- A command to which no reason applies succeeds, does what it says, asks the peer what it has to and tells the host what is
known already. -/
theorem C103_accepted (e : End) (x : Cmd) (hx : x.wellFormed) (h : firstOf (reasons e x) = 0) :
    ∃ out ev, command e x = .ok 0 (left e x) out ev ∧ Asks e x out ∧ Tells e x ev := (outcome e x hx).2 h

/-- The reasons of a device that has a configuration. -/
example : firstOf (reasons exampleInitiator .securityEnable) ∈ [0, 0x0C, 0x2F] ∧
    firstOf (reasons { exampleInitiator with configs := [⟨1, 0, exampleSettings, true, some exampleProc⟩] } (.procedureEnable 1 true)) = 0x0C ∧
    firstOf (reasons { exampleInitiator with configs := [⟨1, 0, exampleSettings, false, some exampleProc⟩] } (.procedureEnable 1 true)) = 0 ∧
    firstOf (reasons { exampleInitiator with configs := [] } (.removeConfig 1)) = 0x12 := by decide +kernel

/-- The procedure parameters test the wrong bits: LE 2M, bit 1 of the supported PHYs for a configuration, is bit 2 here. A
controller that can do LE 2M and not LE 2M 2BT refuses LE 2M. -/
theorem C103_phy_violated (e : End) (id : Nat) (c : Config) (p : Proc) (hc : e.config id = some c) (hn : c.enabled = false)
    (hp : p.phy = 2) (hs : 1250 ≤ p.minSubevent ∧ p.minSubevent ≤ p.maxSubevent ∧ p.maxSubevent < 4000000)
    (_hy : canSync e.caps 2 = true) (hno : canSync e.caps 3 = false) : command e (.setParameters id p) = .ok 0x0D e [] [] := by
  have h2 : e.caps.phys.testBit 2 = false := by rw [tb2]; simpa [canSync] using hno
  have key : firstOf (reasons e (.setParameters id p)) = 0x0D := by
    by_cases ha : p.antenna < e.caps.antennas <;> simp [reasons, firstOf, hc, hn, hp, hs, h2, ha]
  have := C103_refused e (.setParameters id p) trivial (by rw [key]; decide)
  rw [key] at this
  exact this

example : canSync { exampleInitiator.caps with phys := 2 } 2 = true ∧ canSync { exampleInitiator.caps with phys := 2 } 3 = false := by decide +kernel

end Verif.Cs
