import Verif.Test.Handler
import Verif.Addr.Props
import Verif.Phy.Props
/-!
# C47 and C48: the commands of the test channel and the timer
-/

namespace Verif.Test
open Verif.Addr Verif.Phy

/-! ## Numbers -/

/-- A number in decimal notation. -/
def dec (n : Nat) : Text := Nat.toDigits 10 n

theorem digit_facts {c : Char} (h : c.isDigit = true) : hexVal c = some (c.toNat - 48) ∧ c.toNat - 48 < 10 ∧
    isSpace c = false ∧ c ≠ '-' ∧ c ≠ '+' := by
  have hh : 48 ≤ c.toNat ∧ c.toNat ≤ 57 := by
    simp only [Char.isDigit, Bool.and_eq_true, decide_eq_true_eq, ge_iff_le] at h
    exact ⟨UInt32.le_iff_toNat_le.1 h.1, UInt32.le_iff_toNat_le.1 h.2⟩
  have hne : ∀ d : Char, (d.toNat < 48 ∨ 57 < d.toNat) → c ≠ d := by
    rintro d hd rfl; omega
  refine ⟨?_, by omega, ?_, hne _ (by decide), hne _ (by decide)⟩
  · unfold hexVal
    rw [if_pos]
    · rfl
    · constructor
      · show (48 : Nat) ≤ c.toNat; omega
      · show c.toNat ≤ (57 : Nat); omega
  · simp only [isSpace, Bool.or_eq_false_iff, decide_eq_false_iff_not]
    refine ⟨⟨⟨⟨⟨?_, ?_⟩, ?_⟩, ?_⟩, ?_⟩, ?_⟩ <;> exact hne _ (by decide)

theorem digitRun_dec (cs : Text) (h : ∀ c ∈ cs, c.isDigit = true) : ∀ acc, digitRun 10 cs acc = Nat.ofDigitChars 10 cs acc := by
  induction cs with
  | nil => intro acc; simp [digitRun]
  | cons c cs ih =>
    intro acc
    obtain ⟨h1, h2, -⟩ := digit_facts (h c List.mem_cons_self)
    simp only [digitRun, h1, if_pos h2]
    rw [ih (fun c hc => h c (List.mem_cons_of_mem _ hc)), Nat.ofDigitChars_cons, Nat.mul_comm]
    rfl

theorem dec_digits (n : Nat) : ∀ c ∈ dec n, c.isDigit = true := fun _ hc =>
  Nat.isDigit_of_mem_toDigits (by omega) (by omega) hc

theorem dec_value (n : Nat) : digitRun 10 (dec n) 0 = n := by
  rw [digitRun_dec _ (dec_digits n)]
  exact Nat.ofDigitChars_ten_toDigits

theorem dec_head (n : Nat) (hn : 0 < n) : ∃ c cs, dec n = c :: cs ∧ c ≠ '0' := by
  induction n using Nat.strongRecOn with
  | ind n ih =>
    by_cases hlt : n < 10
    · refine ⟨n.digitChar, [], Nat.toDigits_of_lt_base hlt, ?_⟩
      have : ∀ m : Fin 10, 0 < m.val → m.val.digitChar ≠ '0' := by decide
      exact this ⟨n, hlt⟩ hn
    · obtain ⟨c, cs, h1, h2⟩ := ih (n / 10) (by omega) (by omega)
      refine ⟨c, cs ++ [(n % 10).digitChar], ?_, h2⟩
      unfold dec at h1 ⊢
      rw [Nat.toDigits_of_base_le (by omega) (by omega), h1, List.cons_append]

/-- Decimal numbers are read as they are. -/
theorem parseIntParam_dec {n : Nat} (hn : n < 2 ^ 64) : parseIntParam (dec n) = n := by
  by_cases h0 : n = 0
  · subst h0; decide +kernel
  obtain ⟨c, cs, h1, h2⟩ := dec_head n (by omega)
  have hc : c.isDigit = true := dec_digits n c (by rw [h1]; exact List.mem_cons_self)
  obtain ⟨-, -, hs, hm, hp⟩ := digit_facts hc
  have hv := dec_value n
  have hsp : countSpaces (dec n) = 0 := by
    rw [h1]; simp only [countSpaces, hs]; rfl
  have hsg : signOf (dec n) = (false, dec n) := by
    rw [h1]; unfold signOf; split
    · rename_i he; cases he; exact absurd rfl hm
    · rename_i he; cases he; exact absurd rfl hp
    · rfl
  have hb : detectBase (dec n) = (10, dec n) := by
    rw [h1]; unfold detectBase; split
    · rename_i he; cases he; exact absurd rfl h2
    · rename_i he; cases he; exact absurd rfl h2
    · rename_i he; cases he; exact absurd rfl h2
    · rfl
  unfold parseIntParam
  rw [hsp, List.drop_zero, hsg]
  simp only [hb, hv]
  rw [if_neg (by omega)]
  rfl

theorem parseId_dec {n : Nat} (hn : n < 2 ^ 32) : parseId (dec n) = n := by
  rw [parseId, parseIntParam_dec (by omega)]; omega

/-! ## C47: the meaning of the commands -/

/-- The operation on the test model that a command stands for. -/
inductive Means : Text → List Text → Op → Prop where
  | del (d : Nat) (h : d < 2 ^ 32) : Means "del".toList [dec d] (.removeDevice d)
  | addPhyLe : Means "add_phy".toList ["LOW_ENERGY".toList] (.addPhy .lowEnergy)
  | addPhyBr : Means "add_phy".toList ["BR_EDR".toList] (.addPhy .brEdr)
  | delPhy (p : Nat) (h : p < 2 ^ 32) : Means "del_phy".toList [dec p] (.removePhy p)
  | attach (d p : Nat) (h : d < 2 ^ 32) (h' : p < 2 ^ 32) :
    Means "add_device_to_phy".toList [dec d, dec p] (.addDeviceToPhy d p)
  | detach (d p : Nat) (h : d < 2 ^ 32) (h' : p < 2 ^ 32) :
    Means "del_device_from_phy".toList [dec d, dec p] (.removeDeviceFromPhy d p)
  | setAddress (d : Nat) (a : Address) (h : d < 2 ^ 32) :
    Means "set_device_address".toList [dec d, Verif.Addr.toString a] (.setAddress d a)

/-- Only the test model differs. -/
structure OnlyModel (s s' : State) : Prop where
  timer : s'.timer = s.timer
  pendingResets : s'.pendingResets = s.pendingResets
  configured : s'.configured = s.configured

theorem handle_del (c : Bool) (s : State) (args : List Text) :
    handleCommand c s "del".toList args = delDevice s args := rfl

theorem into_toString (a b : Address) : (fromStringInto (Verif.Addr.toString a) b).2 = a := by
  unfold fromStringInto; rw [C04_roundtrip]

/-- **C47 (operations).** A command performs exactly the operation it stands for, and is answered once. -/
theorem C47_operation {name : Text} {args : List Text} {op : Op} (h : Means name args op) (c : Bool) (s : State) :
    ∃ s', handleCommand c s name args = .ok s' [.done] ∧
      Verif.Phy.step Config.default s.model op = some s'.model ∧ OnlyModel s s' := by
  have fin : ∀ op, (∃ m, Verif.Phy.step Config.default s.model op = some m) →
      Verif.Phy.step Config.default s.model op = some (s.apply op).model ∧ OnlyModel s (s.apply op) := by
    rintro op ⟨m, hm⟩
    exact ⟨by simp only [State.apply, hm, Option.getD_some], rfl, rfl, rfl⟩
  cases h with
  | del d h =>
    refine ⟨s.apply (.removeDevice d), ?_, fin _ ⟨_, rfl⟩⟩
    show delDevice s [dec d] = _
    simp only [delDevice, parseId_dec h]
  | addPhyLe => exact ⟨_, rfl, fin (.addPhy .lowEnergy) ⟨_, rfl⟩⟩
  | addPhyBr => exact ⟨_, rfl, fin (.addPhy .brEdr) ⟨_, rfl⟩⟩
  | delPhy p h =>
    refine ⟨s.apply (.removePhy p), ?_, fin _ ⟨_, rfl⟩⟩
    show delPhy s [dec p] = _
    simp only [Test.delPhy, parseId_dec h]
  | attach d p h h' =>
    refine ⟨s.apply (.addDeviceToPhy d p), ?_, fin _ ⟨_, rfl⟩⟩
    show addDeviceToPhy s [dec d, dec p] = _
    simp only [Test.addDeviceToPhy, parseId_dec h, parseId_dec h']
  | detach d p h h' =>
    refine ⟨s.apply (.removeDeviceFromPhy d p), ?_, fin _ ⟨_, rfl⟩⟩
    show delDeviceFromPhy s [dec d, dec p] = _
    simp only [delDeviceFromPhy, parseId_dec h, parseId_dec h']
  | setAddress d a h =>
    refine ⟨s.apply (.setAddress d a), ?_, fin _ ⟨_, rfl⟩⟩
    show setDeviceAddress s [dec d, Verif.Addr.toString a] = _
    simp only [setDeviceAddress, parseId_dec h, into_toString]

theorem run_two {s : State} {op1 op2 : Op} {m : Model} (h1 : Verif.Phy.step Config.default s.model op1 = some m)
    (h2 : ∃ m', Verif.Phy.step Config.default m op2 = some m') :
    Verif.Phy.run Config.default s.model [op1, op2] = some ((s.apply op1).apply op2).model := by
  obtain ⟨m', h2⟩ := h2
  simp only [Verif.Phy.run, State.apply, h1, Option.bind_some, Option.getD_some, h2]

theorem addDevice_total (m : Model) (d : Nat) : ∃ m', Verif.Phy.step Config.default m (.addDevice d) = some m' := by
  simp only [Verif.Phy.step]
  split <;> exact ⟨_, rfl⟩

theorem addLinkLayer_total (m : Model) (d : Nat) (t : PhyType) :
    ∃ m', Verif.Phy.step Config.default m (.addLinkLayer d t) = some m' := by
  simp only [Verif.Phy.step]
  split <;> exact ⟨_, rfl⟩

/-- **C47 (new devices).** 'add' with the kind and the address of a device adds one new device with that address. -/
theorem C47_add (c : Bool) (s : State) (kind : Text) (hk : kind = "beacon".toList ∨ kind = "sniffer".toList)
    (a : Address) : ∃ s', handleCommand c s "add".toList [kind, Verif.Addr.toString a] = .ok s' [.done] ∧
      Verif.Phy.run Config.default s.model [.construct (some a), .addDevice s.model.nextDev] = some s'.model ∧
      OnlyModel s s' := by
  refine ⟨s.addNew (some a), ?_, run_two rfl (addDevice_total _ _), rfl, rfl, rfl⟩
  show addDevice s [kind, Verif.Addr.toString a] = _
  rcases hk with rfl | rfl
  · simp only [Test.addDevice, if_true, argAddress, into_toString]
  · have hne : ¬ "sniffer".toList = "beacon".toList := by decide
    simp only [Test.addDevice, if_neg hne, if_true, argAddress, into_toString]

/-- **C47 (new devices).** The interval of a beacon is any 32-bit number in decimal notation. -/
theorem C47_add_interval (c : Bool) (s : State) (a : Address) (i : Nat) (hi : i < 2 ^ 31) :
    handleCommand c s "add".toList ["beacon".toList, Verif.Addr.toString a, dec i] =
      handleCommand c s "add".toList ["beacon".toList, Verif.Addr.toString a] := by
  have hst : stoi (dec i) = some (i : Int) := by
    obtain ⟨d, ds, h1⟩ : ∃ d ds, dec i = d :: ds := by
      cases h : dec i with
      | nil => exact absurd h Nat.toDigits_ne_nil
      | cons d ds => exact ⟨d, ds, rfl⟩
    have hd : d.isDigit = true := dec_digits i d (by rw [h1]; exact List.mem_cons_self)
    obtain ⟨-, -, hs, hm, hp⟩ := digit_facts hd
    have hv := dec_value i
    have hsp : countSpaces (dec i) = 0 := by rw [h1]; simp only [countSpaces, hs]; rfl
    have hsg : signOf (dec i) = (false, dec i) := by
      rw [h1]; unfold signOf; split
      · rename_i he; cases he; exact absurd rfl hm
      · rename_i he; cases he; exact absurd rfl hp
      · rfl
    unfold stoi
    rw [hsp, List.drop_zero, hsg]
    rw [h1] at hv ⊢
    simp only [hd, if_true, hv, Bool.false_eq_true, if_false]
    rw [if_pos (by omega)]
  show addDevice s ["beacon".toList, Verif.Addr.toString a, dec i] = addDevice s ["beacon".toList, Verif.Addr.toString a]
  simp only [Test.addDevice, if_true, argAddress, hst]

/-- **C47 (remote devices).** 'add_remote' adds one device to all phys of the type, if the server answers. -/
theorem C47_add_remote (s : State) (server type : Text) (port : Nat) (hp : 0 < port) (hp' : port < 2 ^ 16)
    (hs : 2 ≤ server.length) :
    ∃ s', handleCommand true s "add_remote".toList [server, dec port, type] = .ok s' [.done] ∧
      Verif.Phy.run Config.default s.model [.construct none, .addLinkLayer s.model.nextDev
        (if type = "LOW_ENERGY".toList then .lowEnergy else .brEdr)] = some s'.model ∧ OnlyModel s s' := by
  refine ⟨_, ?_, run_two rfl (addLinkLayer_total _ _ _), rfl, rfl, rfl⟩
  show addRemote true s [server, dec port, type] = _
  simp only [addRemote, parseIntParam_dec (show port < 2 ^ 64 by omega), if_true]
  rw [if_neg (by omega)]

/-! ## C47: nothing else happens -/

/-- The known names. -/
def commandNames : List Text :=
  ["add", "add_remote", "del", "add_phy", "del_phy", "add_device_to_phy", "del_device_from_phy", "list",
    "set_device_address", "set_device_configuration", "set_timer_period", "start_timer", "stop_timer",
    "reset"].map String.toList

/-- One case per command. -/
theorem handle_cases {P : Outcome → Prop} (c : Bool) (s : State) (name : Text) (args : List Text)
    (h0 : name = "add".toList → P (addDevice s args))
    (h1 : name = "add_remote".toList → P (addRemote c s args))
    (h2 : name = "del".toList → P (delDevice s args))
    (h3 : name = "add_phy".toList → P (addPhy s args))
    (h4 : name = "del_phy".toList → P (delPhy s args))
    (h5 : name = "add_device_to_phy".toList → P (addDeviceToPhy s args))
    (h6 : name = "del_device_from_phy".toList → P (delDeviceFromPhy s args))
    (h7 : name = "list".toList → P (list s args))
    (h8 : name = "set_device_address".toList → P (setDeviceAddress s args))
    (h9 : name = "set_device_configuration".toList → P (setDeviceConfiguration s args))
    (h10 : name = "set_timer_period".toList → P (setTimerPeriod s args))
    (h11 : name = "start_timer".toList → P (startTimer s))
    (h12 : name = "stop_timer".toList → P (stopTimer s))
    (h13 : name = "reset".toList → P (resetCommand s))
    (hx : P (.ok s [.unhandled])) : P (handleCommand c s name args) := by
  unfold handleCommand
  exact iteInduction (motive := P) h0 (fun _ =>
    iteInduction (motive := P) h1 (fun _ =>
    iteInduction (motive := P) h2 (fun _ =>
    iteInduction (motive := P) h3 (fun _ =>
    iteInduction (motive := P) h4 (fun _ =>
    iteInduction (motive := P) h5 (fun _ =>
    iteInduction (motive := P) h6 (fun _ =>
    iteInduction (motive := P) h7 (fun _ =>
    iteInduction (motive := P) h8 (fun _ =>
    iteInduction (motive := P) h9 (fun _ =>
    iteInduction (motive := P) h10 (fun _ =>
    iteInduction (motive := P) h11 (fun _ =>
    iteInduction (motive := P) h12 (fun _ =>
    iteInduction (motive := P) h13 (fun _ => hx))))))))))))))

/-- **C47 (unknown commands).** They are answered and change nothing. -/
theorem C47_unknown (c : Bool) (s : State) (name : Text) (args : List Text) (h : name ∉ commandNames) :
    handleCommand c s name args = .ok s [.unhandled] := by
  have mem : ∀ {n : String}, n ∈ ["add", "add_remote", "del", "add_phy", "del_phy", "add_device_to_phy",
      "del_device_from_phy", "list", "set_device_address", "set_device_configuration", "set_timer_period",
      "start_timer", "stop_timer", "reset"] → name = n.toList → False :=
    fun hn he => h (he ▸ List.mem_map_of_mem hn)
  refine handle_cases (P := fun o => o = .ok s [.unhandled]) c s name args
    ?_ ?_ ?_ ?_ ?_ ?_ ?_ ?_ ?_ ?_ ?_ ?_ ?_ ?_ rfl
  all_goals exact fun he => (mem (by simp) he).elim

/-- The commands that misbehave: those that need an argument and have none, a beacon whose interval is not a number,
and 'list' with arguments. -/
def Misused (name : Text) (args : List Text) : Prop :=
  (args = [] ∧ (name = "del".toList ∨ name = "del_phy".toList ∨ name = "set_timer_period".toList)) ∨
  (name = "add".toList ∧ ∃ a i rest, args = "beacon".toList :: a :: i :: rest ∧ stoi i = none) ∨
  (name = "list".toList ∧ args ≠ [])

/-- **C47 (one answer), partial.** Every command is answered exactly once, and changes nothing unless it is reported
as done. Missing: the commands in `Misused` (`C47_crash_violated`, `C47_silent_violated`). -/
theorem C47_answered_partial (c : Bool) (s : State) (name : Text) (args : List Text) (h : ¬ Misused name args) :
    ∃ s' r, handleCommand c s name args = .ok s' [r] ∧ (r ≠ .done → s' = s) := by
  have keep : ∀ {r : Reply}, r ≠ .done → ∃ s' r', Outcome.ok s [r] = .ok s' [r'] ∧ (r' ≠ .done → s' = s) :=
    fun _ => ⟨s, _, rfl, fun _ => rfl⟩
  have change : ∀ {s1 : State}, ∃ s' r', Outcome.ok s1 [.done] = .ok s' [r'] ∧ (r' ≠ .done → s' = s) :=
    ⟨_, .done, rfl, fun h => absurd rfl h⟩
  refine handle_cases (P := fun o => ∃ s' r, o = .ok s' [r] ∧ (r ≠ .done → s' = s)) c s name args
    ?_ ?_ ?_ ?_ ?_ ?_ ?_ ?_ ?_ ?_ ?_ ?_ ?_ ?_ (keep nofun)
  · intro h1
    unfold addDevice
    split
    · exact keep nofun
    · rename_i kind rest
      split
      · rename_i hb
        split
        · rename_i a i rest'
          split
          · rename_i hst
            exact absurd (Or.inr (Or.inl ⟨h1, a, i, rest', by rw [hb], hst⟩)) h
          · exact change
        · exact change
      · split
        · exact change
        · exact keep nofun
  · intro h2
    unfold addRemote
    split
    · split
      · exact keep nofun
      · split
        · exact change
        · exact ⟨s, .done, rfl, fun h => absurd rfl h⟩
    · exact keep nofun
  · intro h3
    unfold delDevice
    split
    · exact absurd (Or.inl ⟨rfl, Or.inl h3⟩) h
    · exact change
  · intro h4
    unfold addPhy
    split
    · split
      · exact change
      · split
        · exact change
        · exact keep nofun
    · exact keep nofun
  · intro h5
    unfold delPhy
    split
    · exact absurd (Or.inl ⟨rfl, Or.inr (Or.inl h5)⟩) h
    · exact change
  · intro h6
    unfold addDeviceToPhy
    split
    · exact change
    · exact keep nofun
  · intro h7
    unfold delDeviceFromPhy
    split
    · exact change
    · exact keep nofun
  · intro h8
    unfold list
    split
    · exact keep nofun
    · rename_i hne
      exact absurd (Or.inr (Or.inr ⟨h8, fun he => hne he⟩)) h
  · intro h9
    unfold setDeviceAddress
    split
    · exact change
    · exact keep nofun
  · intro h10
    unfold setDeviceConfiguration
    split
    · split
      · exact keep nofun
      · exact change
    · exact keep nofun
  · intro h11
    unfold setTimerPeriod
    split
    · exact absurd (Or.inl ⟨rfl, Or.inr (Or.inr h11)⟩) h
    · split
      · exact change
      · exact keep nofun
  · intro h12; exact change
  · intro h13; exact change
  · intro h14; exact change

/-- **C47, violated.** A missing argument is undefined behaviour and a beacon interval that is no number ends the
process, in every state. -/
theorem C47_crash_violated (c : Bool) (s : State) :
    handleCommand c s "del".toList [] = .undefined ∧ handleCommand c s "del_phy".toList [] = .undefined ∧
    handleCommand c s "set_timer_period".toList [] = .undefined ∧
    handleCommand c s "add".toList ["beacon".toList, "".toList, "fast".toList] = .terminate := by
  refine ⟨rfl, rfl, rfl, ?_⟩
  have : stoi "fast".toList = none := by decide +kernel
  show addDevice s ["beacon".toList, "".toList, "fast".toList] = _
  simp only [Test.addDevice, if_true, this]

theorem stoi_signed (i : Nat) (sign : Text) (hs : sign = [] ∨ sign = ['+'] ∨ sign = ['-']) :
    stoi (sign ++ dec i) = let v : Int := if sign = ['-'] then -(i : Int) else i
      if - 2 ^ 31 ≤ v ∧ v < 2 ^ 31 then some v else none := by
  obtain ⟨d, ds, h1⟩ : ∃ d ds, dec i = d :: ds := by
    cases h : dec i with
    | nil => exact absurd h Nat.toDigits_ne_nil
    | cons d ds => exact ⟨d, ds, rfl⟩
  have hd : d.isDigit = true := dec_digits i d (by rw [h1]; exact List.mem_cons_self)
  obtain ⟨-, -, hsp, hm, hp⟩ := digit_facts hd
  have hv := dec_value i
  have hc : countSpaces (sign ++ dec i) = 0 := by
    rcases hs with rfl | rfl | rfl
    · rw [h1]; simp only [List.nil_append, countSpaces, hsp]; rfl
    · rfl
    · rfl
  have hg : signOf (sign ++ dec i) = (decide (sign = ['-']), dec i) := by
    rcases hs with rfl | rfl | rfl
    · rw [h1]; simp only [List.nil_append]; unfold signOf; split
      · rename_i he; cases he; exact absurd rfl hm
      · rename_i he; cases he; exact absurd rfl hp
      · rfl
    · rfl
    · rfl
  unfold stoi
  rw [hc, List.drop_zero, hg]
  rw [h1] at hv ⊢
  simp only [hd, if_true, hv]
  rcases hs with rfl | rfl | rfl <;> simp

/-- **C47 (intervals).** A beacon with a decimal interval, with or without a sign, is added just if the interval is a 32-bit
number; otherwise the process ends. -/
theorem C47_interval_range_partial (c : Bool) (s : State) (a : Address) (i : Nat) (sign : Text) (hs : sign = [] ∨ sign = ['+'] ∨ sign = ['-']) :
    handleCommand c s "add".toList ["beacon".toList, Verif.Addr.toString a, sign ++ dec i] =
      if i < 2147483648 ∨ (i = 2147483648 ∧ sign = ['-']) then handleCommand c s "add".toList ["beacon".toList, Verif.Addr.toString a]
      else .terminate := by
  have hst := stoi_signed i sign hs
  show addDevice s ["beacon".toList, Verif.Addr.toString a, sign ++ dec i] = if _ then addDevice s ["beacon".toList, Verif.Addr.toString a] else _
  simp only [Test.addDevice, if_true, argAddress, hst]
  by_cases hm : sign = ['-']
  · simp only [hm, if_true, and_true]
    by_cases hi : i < 2147483648 ∨ i = 2147483648
    · rw [if_pos hi, if_pos (by omega)]
    · rw [if_neg hi, if_neg (by omega)]
  · simp only [hm, if_false, and_false, or_false]
    by_cases hi : i < 2147483648
    · rw [if_pos hi, if_pos (by omega)]
    · rw [if_neg hi, if_neg (by omega)]

example : handleCommand false State.init "add".toList ["beacon".toList, "be:ac:01:55:00:01".toList, "-2147483649".toList] = .terminate ∧
    handleCommand false State.init "add".toList ["beacon".toList, "be:ac:01:55:00:01".toList, "+2147483648".toList] = .terminate := by decide +kernel

/-- **C47 (presets).** 'set_device_configuration' gives the device the preset with that name, one of four, and refuses every
other name. -/
theorem C47_configuration (c : Bool) (s : State) (d : Nat) (hd : d < 2 ^ 32) (name : Text) :
    (∀ p : Preset, name = (match p with
        | .default => "default" | .lairdBl654 => "laird_bl654" | .csrRckPtsDongle => "csr_rck_pts_dongle" | .intelBe200 => "intel_be200").toList →
      handleCommand c s "set_device_configuration".toList [dec d, name] = .ok { s with configured := s.configured ++ [(d, p)] } [.done]) ∧
    (name ∉ ["default".toList, "laird_bl654".toList, "csr_rck_pts_dongle".toList, "intel_be200".toList] →
      handleCommand c s "set_device_configuration".toList [dec d, name] = .ok s [.usage]) := by
  have e : ∀ n, handleCommand c s "set_device_configuration".toList [dec d, n] = setDeviceConfiguration s [dec d, n] := fun _ => rfl
  rw [e]
  constructor
  · intro p hp
    have : presetOf name = some p := by
      rw [hp]
      cases p <;> decide
    simp only [setDeviceConfiguration, this, parseId_dec hd]
  · intro h
    simp only [List.mem_cons, List.not_mem_nil, or_false, not_or] at h
    simp only [setDeviceConfiguration, presetOf, h.1, h.2.1, h.2.2.1, h.2.2.2, if_false]

example : handleCommand false State.init "set_device_configuration".toList ["7".toList, "intel_be200".toList] =
    .ok { State.init with configured := [(7, .intelBe200)] } [.done] := by decide +kernel

/-- The devices and phys after the reset tasks of `n` commands 'reset' have run. -/
def resets : Nat → Model → Model
  | 0, m => m
  | n + 1, m => resets n ((Verif.Phy.step Config.default m .reset).getD m)

/-- **C47 (reset).** 'reset' only stops the timer at once; the devices go when the task of the command runs (C10_reset). Each
command has one task, and a task that was not asked for does nothing. -/
theorem C47_reset (c : Bool) (s : State) (hp : s.pendingResets = 0) (n k : Nat) :
    ∃ s', runEvents (List.replicate n (.command c "reset".toList [])) s = some s' ∧ s'.model = s.model ∧ s'.configured = s.configured ∧
      (0 < n → s'.timer.current = none) ∧
      ∃ s'', runEvents (List.replicate k .resetTask) s' = some s'' ∧ s''.model = resets (min n k) s.model ∧ s''.timer = s'.timer := by
  have h1 : ∀ n (s : State), ∃ s', runEvents (List.replicate n (.command c "reset".toList [])) s = some s' ∧ s'.model = s.model ∧
      s'.configured = s.configured ∧ (0 < n → s'.timer.current = none) ∧ s'.pendingResets = s.pendingResets + n := by
    intro n
    induction n with
    | zero => intro s; exact ⟨s, rfl, rfl, rfl, fun h => absurd h (by omega), rfl⟩
    | succ n ih =>
      intro s
      obtain ⟨s', g1, g2, g3, g4, g5⟩ := ih { s with timer := s.timer.stop, pendingResets := s.pendingResets + 1 }
      refine ⟨s', g1, g2, g3, fun _ => ?_, by rw [g5]; simp only; omega⟩
      cases n with
      | zero => cases g1; rfl
      | succ n => exact g4 (by omega)
  have h2 : ∀ k n (s : State), s.pendingResets = n → ∃ s'', runEvents (List.replicate k .resetTask) s = some s'' ∧
      s''.model = resets (min n k) s.model ∧ s''.timer = s.timer := by
    intro k
    induction k with
    | zero => intro n s _; exact ⟨s, rfl, by rw [Nat.min_zero]; rfl, rfl⟩
    | succ k ih =>
      intro n s hn
      cases n with
      | zero =>
        obtain ⟨s'', g1, g2, g3⟩ := ih 0 s hn
        refine ⟨s'', ?_, by simpa using g2, g3⟩
        show runEvents (List.replicate k .resetTask) (runReset s) = some s''
        simpa only [runReset, hn, if_true] using g1
      | succ n =>
        obtain ⟨s'', g1, g2, g3⟩ := ih n { s.apply .reset with pendingResets := s.pendingResets - 1 } (by simp only; omega)
        refine ⟨s'', ?_, ?_, g3⟩
        · show runEvents (List.replicate k .resetTask) (runReset s) = some s''
          simp only [runReset]
          rw [if_neg (by omega)]
          exact g1
        · rw [g2, Nat.succ_min_succ]
          rfl
  obtain ⟨s', g1, g2, g3, g4, g5⟩ := h1 n s
  obtain ⟨s'', k1, k2, k3⟩ := h2 k n s' (by rw [g5, hp]; omega)
  exact ⟨s', g1, g2, g3, g4, s'', k1, by rw [k2, g2], k3⟩

example : (runEvents [.command false "add".toList ["sniffer".toList], .command false "reset".toList [], .resetTask,
      .command false "add".toList ["sniffer".toList], .resetTask] State.init).map (fun s => s.model.devs.map (·.id)) = some [1] := by decide +kernel

/-- **C47, violated.** A number that is too large is not refused: the period becomes -1 ms. -/
theorem C47_period_violated (c : Bool) (s : State) :
    ∃ s', handleCommand c s "set_timer_period".toList ["99999999999999999999".toList] = .ok s' [.done] ∧ s'.timer.period = 2 ^ 64 - 1 := by
  have h : parseIntParam "99999999999999999999".toList = 2 ^ 64 - 1 := by decide +kernel
  have e : handleCommand c s "set_timer_period".toList ["99999999999999999999".toList] = setTimerPeriod s ["99999999999999999999".toList] := rfl
  rw [e]
  simp only [setTimerPeriod, h]
  refine ⟨_, if_pos (by decide), ?_⟩
  unfold Timer.setPeriod
  split
  · rfl
  · rfl

/-- **C47, violated.** 'list' with an argument is not answered. -/
theorem C47_silent_violated (c : Bool) (s : State) : handleCommand c s "list".toList ["all".toList] = .ok s [] := rfl

/-- **C47, violated.** A text that is no number stands for device 0, and numbers are taken modulo 2^32; a device
that was not named is removed. -/
theorem C47_other_device_violated (c : Bool) (s : State) :
    handleCommand c s "del".toList ["first".toList] = .ok (s.apply (.removeDevice 0)) [.done] ∧
    handleCommand c s "del".toList ["4294967297".toList] = .ok (s.apply (.removeDevice 1)) [.done] := by
  have h1 : parseId "first".toList = 0 := by decide +kernel
  have h2 : parseId "4294967297".toList = 1 := by decide +kernel
  exact ⟨by rw [handle_del, delDevice, h1], by rw [handle_del, delDevice, h2]⟩

/-! ## C47: the test model stays consistent -/

theorem phyRun_append (c : Config) (xs ys : List Op) : ∀ m, Verif.Phy.run c m (xs ++ ys) =
    (Verif.Phy.run c m xs).bind (fun m => Verif.Phy.run c m ys) := by
  induction xs with
  | nil => intro m; rfl
  | cons x xs ih =>
    intro m
    simp only [List.cons_append, Verif.Phy.run]
    cases Verif.Phy.step c m x with
    | none => rfl
    | some m' => simp only [Option.bind_some]; exact ih m'

/-- The model is reached from the other one by at most `n` operations. -/
def Reaches (n : Nat) (m m' : Model) : Prop := ∃ ops, ops.length ≤ n ∧ Verif.Phy.run Config.default m ops = some m'

theorem Reaches.refl (n : Nat) (m : Model) : Reaches n m m := ⟨[], Nat.zero_le _, rfl⟩

theorem apply_reaches (s : State) (op : Op) : Reaches 1 s.model (s.apply op).model := by
  unfold State.apply
  cases h : Verif.Phy.step Config.default s.model op with
  | none => exact Reaches.refl _ _
  | some m => exact ⟨[op], Nat.le_refl _, by simp [Verif.Phy.run, h]⟩

theorem Reaches.trans {a b : Nat} {m1 m2 m3 : Model} (h : Reaches a m1 m2) (h' : Reaches b m2 m3) :
    Reaches (a + b) m1 m3 := by
  obtain ⟨x, hx, ex⟩ := h
  obtain ⟨y, hy, ey⟩ := h'
  exact ⟨x ++ y, by rw [List.length_append]; omega, by rw [phyRun_append, ex]; exact ey⟩

theorem apply2_reaches (s : State) (op op' : Op) : Reaches 2 s.model ((s.apply op).apply op').model :=
  (apply_reaches s op).trans (apply_reaches _ op')

theorem Reaches.mono {a b : Nat} {m m' : Model} (h : Reaches a m m') (hab : a ≤ b) : Reaches b m m' := by
  obtain ⟨x, hx, ex⟩ := h
  exact ⟨x, Nat.le_trans hx hab, ex⟩

theorem handle_reaches (c : Bool) (s s' : State) (name : Text) (args : List Text) (rs : List Reply)
    (h : handleCommand c s name args = .ok s' rs) : Reaches 2 s.model s'.model := by
  have one : ∀ op, Reaches 2 s.model (s.apply op).model := fun op => (apply_reaches s op).mono (by omega)
  have two : ∀ op op', Reaches 2 s.model ((s.apply op).apply op').model := apply2_reaches s
  have zero := Reaches.refl 2 s.model
  revert h
  refine handle_cases (P := fun o => o = .ok s' rs → Reaches 2 s.model s'.model) c s name args
    ?_ ?_ ?_ ?_ ?_ ?_ ?_ ?_ ?_ ?_ ?_ ?_ ?_ ?_ (fun h => by cases h; exact zero)
  all_goals
    intro _ h
    simp only [addDevice, addRemote, delDevice, addPhy, delPhy, addDeviceToPhy, delDeviceFromPhy, list,
      setDeviceAddress, setDeviceConfiguration, setTimerPeriod, startTimer, stopTimer, resetCommand] at h
    repeat' split at h
  all_goals first
    | (cases h; done)
    | (cases h; exact zero)
    | (cases h; exact one _)
    | (cases h; exact two _ _)

theorem runEvents_reaches (es : List Event) : ∀ {s s' : State}, runEvents es s = some s' →
    Reaches (2 * es.length) s.model s'.model := by
  induction es with
  | nil => intro s s' h; cases h; exact Reaches.refl _ _
  | cons e es ih =>
    intro s s' h
    cases e with
    | command c n a =>
      simp only [runEvents] at h
      split at h
      · rename_i s1 rs h1
        exact ((handle_reaches _ _ _ _ _ _ h1).trans (ih h)).mono (by simp only [List.length_cons]; omega)
      · cases h
    | resetTask =>
      simp only [runEvents] at h
      have : Reaches 2 s.model (runReset s).model := by
        unfold runReset
        split
        · exact Reaches.refl _ _
        · exact (apply_reaches s .reset).mono (by omega)
      exact (this.trans (ih h)).mono (by simp only [List.length_cons]; omega)

/-- **C47 (consistency).** Whatever commands are given, the test model stays in a state in which devices and phys
list each other (C10). -/
theorem C47_consistent {es : List Event} {s : State} (hlen : es.length < 2 ^ 31)
    (h : runEvents es State.init = some s) (d p : Nat) :
    (DeviceLists s.model d p ↔ PhyLists s.model d p) ∧ (DeviceLists s.model d p → Present s.model d) := by
  obtain ⟨ops, h1, h2⟩ := runEvents_reaches es h
  have hr : Reachable Config.default s.model := ⟨ops, by omega, h2⟩
  exact ⟨C10_membership_symmetric _ _ hr d p, fun hl => (C10_listed_present _ _ hr d p (Or.inl hl)).1⟩

/-! ## C48: the timer -/

/-- The timer as the commands describe it. -/
structure TimerSpec where
  on : Bool
  period : Nat
  deriving DecidableEq, Repr

/-- What a command means for the timer; `none` if the timer is started while it is on. -/
def TimerSpec.step (t : TimerSpec) (name : Text) (args : List Text) : Option TimerSpec :=
  if name = "start_timer".toList then if t.on then none else some { t with on := true }
  else if name = "stop_timer".toList ∨ name = "reset".toList then some { t with on := false }
  else if name = "set_timer_period".toList then
    match args with
    | p :: _ => some (if parseIntParam p = 0 then t else { t with period := parseIntParam p })
    | [] => some t
  else some t

/-- A history. -/
def TimerSpec.run : List Event → TimerSpec → Option TimerSpec
  | [], t => some t
  | .command _ n a :: es, t => (t.step n a).bind (TimerSpec.run es)
  | .resetTask :: es, t => TimerSpec.run es t

/-- The tasks of the scheduler are those that the specification asks for. -/
def TimerOk (t : Timer) (u : TimerSpec) : Prop :=
  t.period = u.period ∧
    if u.on then ∃ k, t.current = some k ∧ t.live = [(k, u.period)] else t.current = none ∧ t.live = []

theorem timer_unchanged {c : Bool} {s s' : State} {name : Text} {args : List Text} {rs : List Reply}
    (h : handleCommand c s name args = .ok s' rs) (h1 : name ≠ "start_timer".toList)
    (h2 : name ≠ "stop_timer".toList) (h3 : name ≠ "reset".toList) (h4 : name ≠ "set_timer_period".toList) :
    s'.timer = s.timer := by
  revert h
  refine handle_cases (P := fun o => o = .ok s' rs → s'.timer = s.timer) c s name args
    ?_ ?_ ?_ ?_ ?_ ?_ ?_ ?_ ?_ ?_ (fun h => absurd h h4) (fun h => absurd h h1) (fun h => absurd h h2)
    (fun h => absurd h h3) (fun h => by cases h; rfl)
  all_goals
    intro _ h
    simp only [addDevice, addRemote, delDevice, addPhy, delPhy, addDeviceToPhy, delDeviceFromPhy, list,
      setDeviceAddress, setDeviceConfiguration] at h
    repeat' split at h
  all_goals first
    | (cases h; done)
    | (cases h; rfl)

theorem stop_ok {t : Timer} {u : TimerSpec} (h : TimerOk t u) : TimerOk t.stop { u with on := false } := by
  obtain ⟨hp, h⟩ := h
  refine ⟨hp, ?_⟩
  simp only [Bool.false_eq_true, if_false, Timer.stop]
  refine ⟨trivial, ?_⟩
  split at h
  · obtain ⟨k, h1, h2⟩ := h; rw [h1, h2]; simp
  · rw [h.2]; rfl

theorem start_ok {t : Timer} {u : TimerSpec} (h : TimerOk t u) (hoff : u.on = false) :
    TimerOk t.start { u with on := true } := by
  obtain ⟨hp, h⟩ := h
  rw [if_neg (by rw [hoff]; decide)] at h
  refine ⟨hp, ?_⟩
  simp only [if_true, Timer.start]
  exact ⟨_, rfl, by rw [h.2, hp]; rfl⟩

theorem timer_step {c : Bool} {s s' : State} {name : Text} {args : List Text} {rs : List Reply} {u u' : TimerSpec}
    (hok : TimerOk s.timer u) (h : handleCommand c s name args = .ok s' rs) (hu : u.step name args = some u') :
    TimerOk s'.timer u' := by
  unfold TimerSpec.step at hu
  by_cases h1 : name = "start_timer".toList
  · subst h1
    rw [if_pos rfl] at hu
    split at hu
    · cases hu
    · rename_i hoff
      cases hu
      have h : startTimer s = .ok s' rs := h
      cases h
      exact start_ok hok (by simpa using hoff)
  rw [if_neg h1] at hu
  by_cases h2 : name = "stop_timer".toList
  · subst h2
    rw [if_pos (Or.inl rfl)] at hu
    cases hu
    have h : stopTimer s = .ok s' rs := h
    cases h
    exact stop_ok hok
  by_cases h3 : name = "reset".toList
  · subst h3
    rw [if_pos (Or.inr rfl)] at hu
    cases hu
    have h : resetCommand s = .ok s' rs := h
    cases h
    exact stop_ok hok
  rw [if_neg (not_or.2 ⟨h2, h3⟩)] at hu
  by_cases h4 : name = "set_timer_period".toList
  · subst h4
    rw [if_pos rfl] at hu
    have h : setTimerPeriod s args = .ok s' rs := h
    cases args with
    | nil => cases h
    | cons p ps =>
      simp only [setTimerPeriod] at h
      by_cases h0 : parseIntParam p = 0
      · rw [if_neg (by simpa using h0)] at h
        simp only [if_pos h0] at hu
        cases h; cases hu; exact hok
      · rw [if_pos h0] at h
        simp only [if_neg h0] at hu
        cases h; cases hu
        show TimerOk (s.timer.setPeriod (parseIntParam p)) _
        unfold Timer.setPeriod
        have hnew : TimerOk { s.timer with period := parseIntParam p }.stop { u with on := false, period := parseIntParam p } := by
          obtain ⟨hp, hk⟩ := hok
          refine ⟨rfl, ?_⟩
          simp only [Bool.false_eq_true, if_false, Timer.stop]
          refine ⟨trivial, ?_⟩
          split at hk
          · obtain ⟨k, g1, g2⟩ := hk; rw [g1, g2]; simp
          · rw [hk.2]; rfl
        cases hon : u.on with
        | true =>
          obtain ⟨hp, hk⟩ := hok
          rw [if_pos hon] at hk
          obtain ⟨k, g1, g2⟩ := hk
          rw [if_neg (by rw [g1]; nofun)]
          have := start_ok hnew rfl
          rw [show ({ u with on := true, period := parseIntParam p } : TimerSpec) = ⟨true, parseIntParam p⟩ from rfl] at this
          rw [show ({ on := true, period := parseIntParam p } : TimerSpec) = ⟨true, parseIntParam p⟩ from rfl]
          exact this
        | false =>
          obtain ⟨hp, hk⟩ := hok
          rw [if_neg (by rw [hon]; decide)] at hk
          rw [if_pos hk.1]
          exact ⟨rfl, by simp only [Bool.false_eq_true, if_false]; exact hk⟩
  rw [if_neg h4] at hu
  cases hu
  rw [timer_unchanged h h1 h2 h3 h4]
  exact hok

/-- **C48 (timer), partial.** If the timer is not started while it is on, then while it is on there is exactly one
periodic task, with the period that was set last, and while it is off there is none. Missing: starting twice
(`C48_started_twice_violated`). -/
theorem C48_timer_partial (es : List Event) : ∀ {s s' : State} {u u' : TimerSpec}, TimerOk s.timer u →
    runEvents es s = some s' → TimerSpec.run es u = some u' →
    s'.timer.live.map (·.2) = if u'.on then [u'.period] else [] := by
  induction es with
  | nil =>
    intro s s' u u' hok h hu
    cases h; cases hu
    obtain ⟨-, hk⟩ := hok
    split at hk
    · obtain ⟨k, -, g⟩ := hk; rw [g]; rename_i hon; rw [if_pos hon]; rfl
    · rw [hk.2]; rename_i hon; rw [if_neg hon]; rfl
  | cons e es ih =>
    intro s s' u u' hok h hu
    cases e with
    | command c n a =>
      simp only [runEvents] at h
      simp only [TimerSpec.run] at hu
      split at h
      · rename_i s1 rs h1
        cases h2 : u.step n a with
        | none => rw [h2] at hu; cases hu
        | some u1 =>
          rw [h2] at hu
          exact ih (timer_step hok h1 h2) h hu
      · cases h
    | resetTask =>
      simp only [runEvents] at h
      simp only [TimerSpec.run] at hu
      refine ih ?_ h hu
      unfold runReset
      split <;> exact hok

/-- The start of the program. -/
example : TimerOk State.init.timer ⟨false, 0⟩ := ⟨rfl, rfl, rfl⟩

/-- **C48, violated.** After starting the timer twice, stopping it leaves a periodic task running for ever. -/
theorem C48_started_twice_violated : ∃ s s' : State,
    runEvents [.command false "set_timer_period".toList ["5".toList], .command false "start_timer".toList [],
      .command false "start_timer".toList []] State.init = some s ∧
    runEvents [.command false "stop_timer".toList []] s = some s' ∧ s'.timer.current = none ∧
    s'.timer.live = [(1, 5)] :=
  ⟨⟨Model.init, ⟨5, some 2, [(1, 5), (2, 5)], 3⟩, 0, []⟩, ⟨Model.init, ⟨5, none, [(1, 5)], 3⟩, 0, []⟩, by decide +kernel⟩

/-! ## The hypotheses can be met -/

/-- A phy, a beacon on it, a period, the timer; then another period. -/
example : ∃ s : State, runEvents [.command false "add_phy".toList ["LOW_ENERGY".toList],
      .command false "add".toList ["beacon".toList, "be:ac:01:55:00:01".toList, "1000".toList],
      .command false "add_device_to_phy".toList ["0".toList, "0".toList],
      .command false "set_timer_period".toList ["5".toList], .command false "start_timer".toList [],
      .command false "set_timer_period".toList ["7".toList]] State.init = some s ∧
    s.timer.live.map (·.2) = [7] ∧ s.model.devs.map (·.id) = [0] ∧ s.model.phys.map (·.members) = [[0]] := by
  refine ⟨⟨⟨[⟨0, ⟨0x01, 0x00, 0x55, 0x01, 0xac, 0xbe⟩, [0]⟩], [⟨0, .lowEnergy, [0]⟩], [], 1, 1⟩, ⟨7, some 2, [(2, 7)], 3⟩, 0, []⟩,
    ?_⟩
  decide +kernel

example : ¬ Misused "set_timer_period".toList ["5".toList] := by
  rintro (⟨h, -⟩ | ⟨h, -⟩ | ⟨h, -⟩)
  · cases h
  · exact absurd h (by decide)
  · exact absurd h (by decide)

end Verif.Test
