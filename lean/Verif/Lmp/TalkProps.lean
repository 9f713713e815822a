import Verif.Lmp.TalkLemmas
/-! # C123: how much link managers say -/
namespace Verif.Lmp.Say

/-- However many devices there are, whatever their hosts do, however links come and go and packets are delayed, reordered and lost: not more
packets are sent than 154 for each request for authentication and 14 for each request for encryption. -/
theorem C123_bound {fs : List Feats} {acts : List TalkAct} {n : Talk} {sent : List (Nat × Nat × Lmp)}
    (h : runTalk acts (Talk.new fs) = some (n, sent)) :
    sent.length ≤ 154 * acts.countP TalkAct.authenticates + 14 * acts.countP TalkAct.encrypts := by
  obtain ⟨y, -, hy⟩ := runTalk_pays (new_pays fs) h
  rw [worthAct_sum] at hy
  omega

/-- An endless history in which hosts ask for authentication and encryption only finitely often: some time the last packet is sent. -/
theorem C123_ends {fs : List Feats} {acts : Nat → TalkAct} {n : Nat → Talk} {sent : Nat → List (Nat × Nat × Lmp)} (h0 : n 0 = Talk.new fs)
    (hs : ∀ i, talkStep (n i) (acts i) = some (n (i + 1), sent i)) {k : Nat}
    (hq : ∀ i ≥ k, (acts i).authenticates = false ∧ (acts i).encrypts = false) : ∃ j, ∀ i ≥ j, sent i = [] := by
  have pay : ∀ i, ∃ x, TalkPays (n i) x := by
    intro i
    induction i with
    | zero => exact ⟨0, h0 ▸ new_pays fs⟩
    | succ i ih =>
      obtain ⟨x, hx⟩ := ih
      obtain ⟨y, hy, -⟩ := talkStep_pays hx (hs i)
      exact ⟨y, hy⟩
  obtain ⟨x, hx⟩ := pay k
  have key : ∀ x i, i ≥ k → TalkPays (n i) x → ∃ j, ∀ i ≥ j, sent i = [] := by
    intro x
    induction x using Nat.strongRecOn with
    | ind x ih =>
      intro i hi hx
      by_cases hall : ∀ d, sent (i + d) = []
      · refine ⟨i, fun j hj => ?_⟩
        have := hall (j - i)
        rwa [show i + (j - i) = j by omega] at this
      · obtain ⟨d, hd⟩ := Classical.not_forall.1 hall
        have walk : ∀ d, ∃ y ≤ x, TalkPays (n (i + d)) y := by
          intro d
          induction d with
          | zero => exact ⟨x, Nat.le_refl _, hx⟩
          | succ d ihd =>
            obtain ⟨y, hy, hp⟩ := ihd
            obtain ⟨z, hz, hz'⟩ := talkStep_pays hp (hs (i + d))
            have hw : worthAct (acts (i + d)) = 0 := by
              obtain ⟨g1, g2⟩ := hq (i + d) (by omega)
              simp [worthAct, g1, g2]
            exact ⟨z, by omega, hz⟩
        obtain ⟨y, hy, hp⟩ := walk d
        obtain ⟨z, hz, hz'⟩ := talkStep_pays hp (hs (i + d))
        have hw : worthAct (acts (i + d)) = 0 := by
          obtain ⟨g1, g2⟩ := hq (i + d) (by omega)
          simp [worthAct, g1, g2]
        have hl : 0 < (sent (i + d)).length := List.length_pos_iff.2 hd
        exact ih z (by omega) (i + d + 1) (by omega) hz
  exact key x k (Nat.le_refl _) hx

/-! ### Examples -/

/-- Deliveries until nothing is on its way; the link manager runs after each. -/
def driven : Nat → Talk → List TalkAct × Talk
  | 0, n => ([], n)
  | k + 1, n =>
    match n.air with
    | [] => ([], n)
    | (_, to, _) :: _ =>
      match runTalk [.deliver 0, .tick (to - 1)] n with
      | none => ([], n)
      | some (m, _) => (.deliver 0 :: .tick (to - 1) :: (driven k m).1, (driven k m).2)

/-- The hosts act, and after each act all packets are delivered. -/
def played : List (List TalkAct) → Talk → List TalkAct
  | [], _ => []
  | g :: gs, n =>
    match runTalk g n with
    | none => []
    | some (m, _) => g ++ (driven 200 m).1 ++ played gs (driven 200 m).2

/-- Two devices with secure connections. -/
def secure : Feats := ⟨⟨true, true, false⟩, ⟨false, false, true⟩, ⟨false, false, false⟩⟩

/-- A keyboard and a display pair. -/
def keyboard : Params := ⟨.keyboardOnly, .notPresent, .generalMitm⟩
def display : Params := ⟨.displayOnly, .notPresent, .generalMitm⟩

/-- The first host authenticates. -/
def pairing : List (List TalkAct) :=
  [[.add 0 2, .add 1 1, .host 0 ⟨.authenticationRequested, 2, keyboard⟩, .tick 0], [.host 0 ⟨.linkKeyNeg, 2, keyboard⟩, .tick 0],
   [.host 0 ⟨.ioReply, 2, keyboard⟩, .tick 0], [.host 1 ⟨.ioReply, 1, display⟩, .tick 1], [.host 0 ⟨.passkeyReply, 2, keyboard⟩, .tick 0]]

/-- The first host encrypts. -/
def encrypting : List (List TalkAct) := [[.add 0 2, .add 1 1, .host 0 ⟨.setConnectionEncryption, 2, keyboard⟩, .tick 0]]

/-- Pairing with a passkey takes exactly 154 packets, and encryption 14. -/
example : (runTalk (played pairing (Talk.new [secure, secure])) (Talk.new [secure, secure])).map (·.2.length) = some 154 := by decide +kernel
example : (runTalk (played encrypting (Talk.new [secure, secure])) (Talk.new [secure, secure])).map (·.2.length) = some 14 := by decide +kernel
example : (played pairing (Talk.new [secure, secure])).countP TalkAct.authenticates = 1 := by decide +kernel

end Verif.Lmp.Say
