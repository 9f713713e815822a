import Verif.Le.PropsParams
import Verif.Le.PropsAdv
import Verif.Le.PropsSelect
/-!
# Commands never crash (C43), rejected commands have no effect (C44)
-/

namespace Verif.Le

/-! ## C43 -/

theorem checkHandles_ub {m : List (UInt8 × ExtAdv)} (sets : List EnabledSet) :
    ∀ used, checkHandles m used sets = .ub → ∃ set ∈ sets, set.handle = 255 := by
  induction sets with
  | nil => intro used h; cases h
  | cons set sets ih =>
    intro used h
    simp only [checkHandles] at h
    split at h
    · rename_i hh; exact ⟨set, List.mem_cons_self, hh⟩
    · split at h
      · cases h
      · split at h
        · cases h
        · obtain ⟨x, hx, hh⟩ := ih _ h
          exact ⟨x, List.mem_cons_of_mem _ hx, hh⟩

/-- **C43, partial.** In every state, every command with any parameters is answered with
a status. Missing: LE Set Extended Advertising Enable with the advertising handle 0xFF
(`C43_handle_255_violated`). -/
theorem C43_answered_partial (cfg : Config) (s : State) (c : Cmd)
    (hc : ∀ now rnd enable sets, c = .setExtAdvertisingEnable now rnd enable sets →
      ∀ set ∈ sets, set.handle ≠ 255) :
    ∃ s' st, step cfg s (.cmd c) = .ok s' (some st) [] := by
  cases c
  case setExtAdvertisingEnable now rnd enable sets =>
    have hne := hc now rnd enable sets rfl
    cases hr : setExtAdvertisingEnable cfg now rnd s enable sets with
    | some r =>
      refine ⟨r.1, r.2, ?_⟩
      simp only [step, runCmd, hr, Result.of]
    | none =>
      exfalso
      simp only [setExtAdvertisingEnable] at hr
      split at hr
      · cases hr
      · split at hr
        · rename_i hub
          obtain ⟨set, hm, hh⟩ := checkHandles_ub sets _ hub
          exact hne set hm hh
        · cases hr
        · repeat' split at hr
          all_goals cases hr
  all_goals exact ⟨_, _, rfl⟩

example : ∃ s' st, step Config.default (initial none)
    (.cmd (.setExtAdvertisingEnable 0 (fun _ _ => 0) true [⟨254, 0, 0⟩])) = .ok s' (some st) [] :=
  ⟨_, _, rfl⟩

/-- **C43, violated.** Enabling the advertising set with handle 0xFF reads past the end
of a 255 element array, in the initial state already. -/
theorem C43_handle_255_violated :
    step Config.default (initial none)
      (.cmd (.setExtAdvertisingEnable 0 (fun _ _ => 0) true [⟨255, 0, 0⟩])) = .ub :=
  rfl

/-- **C43 (parameter lists).** Whenever the extended scan and connection commands are
accepted, each PHY of the mask has an entry in the parameter list, so that the code's
unchecked indexing stays within the list. -/
theorem C43_indices {cfg : Config} {s s' : State} {phys : UInt8} :
    (∀ own policy (params : List ScanPhyParams), step cfg s (.cmd (.setExtendedScanParameters own policy phys params)) =
        .ok s' (some .success) [] →
      (phys.toNat.testBit 0 = true → 0 < params.length) ∧
      (phys.toNat.testBit 2 = true → (if phys.toNat.testBit 0 then 1 else 0) < params.length)) ∧
    (∀ rnd policy own peer (params : List ConnParams),
      step cfg s (.cmd (.extendedCreateConnection rnd policy own peer phys params)) =
        .ok s' (some .success) [] →
      ∀ phy : Phy, phys.toNat.testBit phy.bit = true →
        ((List.range phy.bit).filter (fun i => phys.toNat.testBit i)).length < params.length) := by
  constructor
  · intro own policy params h
    rcases extScan_cases (cfg := cfg) (s := s) (own := own) (policy := policy) (phys := phys)
      (params := params) with ⟨s1, h1, a, b, c, d, e, -⟩ | ⟨s1, st1, h1, hst, -⟩
    · rw [e]
      have key : ∀ n : Fin 256, (n.val.testBit 0 = true → 0 < bitCount n.val) ∧
          (n.val.testBit 2 = true → (if n.val.testBit 0 then 1 else 0) < bitCount n.val) := by
        decide +kernel
      exact key ⟨phys.toNat, phys.toNat_lt⟩
    · rw [h1] at h; cases h; exact absurd rfl hst
  · intro rnd policy own peer params h phy ht
    obtain ⟨-, -, -, -, e, -, -, -, hphy⟩ := extendedCreateConnection_success h
    have := hphy phy
    rw [if_pos ht] at this
    obtain ⟨p, hp, -⟩ := this
    unfold listedFor at hp
    rw [if_pos ht] at hp
    exact (List.getElem?_eq_some_iff.1 hp).1

/-! ## C44 -/

theorem generateRpa_none {rnd : Irk → Address} {a : AddressWithType} {sel : IrkSelection} :
    ∀ {l : List RlEntry}, (generateRpa rnd a sel l).2 = none → (generateRpa rnd a sel l).1 = l := by
  intro l
  induction l with
  | nil => intro _; rfl
  | cons e l ih =>
    simp only [generateRpa]
    split
    · cases sel <;> (intro h; cases h)
    · intro h; rw [ih h]

theorem initiatorAddressCheck_fail {rnd : Irk → Address} {s : State} {policy peer own}
    (h : (initiatorAddressCheck rnd s policy peer own).2 = true) :
    (initiatorAddressCheck rnd s policy peer own).1 = s := by
  unfold initiatorAddressCheck at h ⊢
  split at h
  · rename_i hc; rw [if_pos hc]
  · rename_i hc; rw [if_neg hc]
    split at h
    · rename_i hc'; rw [if_pos hc']
      simp only [Bool.and_eq_true, Option.isNone_iff_eq_none] at h
      simp only [generateRpa_none h.1]
    · cases h

/-- Commands whose rejection can still change something: they generate private addresses
before they fail, discard data, or fail halfway. -/
def Cmd.leaky : Cmd → Bool
  | .setAdvertisingEnable .. | .setExtAdvertisingEnable .. | .setExtAdvertisingData ..
  | .setExtScanResponseData .. | .setPeriodicData .. => true
  | _ => false

/-- Two states agree on everything but the choice between legacy and extended commands. -/
def SameButSelection (s s' : State) : Prop :=
  s' = { s with legacyInUse := s'.legacyInUse, extendedInUse := s'.extendedInUse }

/-- **C44, partial.** A rejected command changes nothing but the selection between legacy
and extended commands. Missing: the five commands of `Cmd.leaky`, for which weaker
statements follow, and the selection (`C18_failed_command_selects`). -/
theorem C44_rejected_partial {cfg : Config} {s s' : State} {c : Cmd} {st out}
    (hc : c.leaky = false) (h : step cfg s (.cmd c) = .ok s' (some st) out) (hst : st ≠ .success) :
    SameButSelection s s' ∧ (c.kind = .neutral → s' = s) := by
  obtain ⟨e, he, heq, -⟩ := step_cmd h
  cases heq
  unfold SameButSelection
  cases c
  case createConnection rnd policy peer own p =>
    refine ⟨?_, fun h => (by cases h)⟩
    obtain ⟨rfl, rfl⟩ := runCmd_ret_of he
    revert hst
    simp only [createConnection, withLegacy, checkedThen]
    repeat' split
    · exact fun _ => rfl
    · rename_i hf
      intro _
      rw [initiatorAddressCheck_fail hf]
    · exact fun h => absurd rfl h
    · exact fun _ => rfl
  case extendedCreateConnection rnd policy own peer phys params =>
    refine ⟨?_, fun h => (by cases h)⟩
    obtain ⟨rfl, rfl⟩ := runCmd_ret_of he
    revert hst
    simp only [extendedCreateConnection, withExtended, checkedThen]
    split
    · exact fun _ => rfl
    · split
      · split
        · rename_i hf
          intro _
          rw [initiatorAddressCheck_fail hf]
        · exact fun h => absurd rfl h
      · exact fun _ => rfl
  all_goals first | (cases hc; done) | skip
  all_goals
    obtain ⟨rfl, rfl⟩ := runCmd_ret_of he
    revert hst
    unfold_handlers
    repeat' split
    all_goals first
      | (intro _; exact ⟨rfl, fun _ => rfl⟩)
      | (intro _; exact ⟨rfl, fun h => (by cases h)⟩)
      | (intro h; exact absurd rfl h)

example : ∃ s', step Config.default (initial none) (.cmd (.setRandomAddress 0)) =
    .ok s' (some .invalidHciCommandParameters) [] ∧ s' = initial none :=
  ⟨_, rfl, rfl⟩

/-- **C44, partial (LE Set Advertising Enable).** A rejected LE Set Advertising Enable
changes nothing but the selection and generated local private addresses. -/
theorem C44_advertising_enable_partial {cfg : Config} {s s' : State} {now rnd enable st out}
    (h : step cfg s (.cmd (.setAdvertisingEnable now rnd enable)) = .ok s' (some st) out)
    (hst : st ≠ .success) :
    SameButSelection { s with resolvingList := s'.resolvingList } s' ∧
    s'.resolvingList.map RlEntry.content = s.resolvingList.map RlEntry.content := by
  obtain ⟨e, he, heq, -⟩ := step_cmd h
  cases heq
  refine ⟨?_, runCmd_content rfl he⟩
  obtain ⟨rfl, rfl⟩ := runCmd_ret_of he
  revert hst
  unfold SameButSelection
  unfold_handlers
  repeat' split
  all_goals first | (intro _; rfl) | (intro h; exact absurd rfl h)

/-- **C44, violated (LE Set Advertising Enable).** A rejected LE Set Advertising Enable
changes the answer to LE Read Local Resolvable Address. -/
theorem C44_advertising_enable_violated :
    ∃ s s', Reachable Config.default s ∧
      step Config.default s (.cmd (.setAdvertisingEnable 0 (fun _ _ => 7) true)) =
        .ok s' (some .invalidHciCommandParameters) [] ∧
      readLocalRpa s .pub 1 = none ∧ readLocalRpa s' .pub 1 = some 7 := by
  refine ⟨_, _, ⟨none, [.cmd (.addResolving .pub 1 5 6),
    .cmd (.setAdvertisingParameters ⟨0x20, 0x20, .advInd, .random, .pub, 1, 7, .allDevices⟩)], rfl⟩, rfl, rfl, rfl⟩

/-- Discarding the data of a set, its scan response data or its periodic data. -/
inductive DiscardOf (a : ExtAdv) : ExtAdv → Prop
  | data : DiscardOf a { a with data := [], partialData := false }
  | scanResponse : DiscardOf a { a with scanResponse := [], partialScanResponse := false }
  | periodicData : DiscardOf a { a with periodicData := [], partialPeriodicData := false }

/-- The set a data command is about. -/
def Cmd.dataHandle : Cmd → Option UInt8
  | .setExtAdvertisingData h _ _ | .setExtScanResponseData h _ _ | .setPeriodicData h _ _ => some h
  | _ => none

/-- **C44, partial (data commands).** A rejected data command changes nothing but the
selection; or, if it is rejected because the data is too long, the stored data of this
kind of this set is discarded. See `C20_rejected_data_violated`. -/
theorem C44_data_partial {cfg : Config} {s s' : State} {c : Cmd} {hd : UInt8} {st out}
    (hc : c.dataHandle = some hd)
    (h : step cfg s (.cmd c) = .ok s' (some st) out) (hst : st ≠ .success) :
    SameButSelection s s' ∨
    ((st = .memoryCapacityExceeded ∨ st = .packetTooLong) ∧
      ∃ a a', mapFind s.extAdv hd = some a ∧ DiscardOf a a' ∧
        SameButSelection { s with extAdv := mapSet s.extAdv hd a' } s') := by
  obtain ⟨e, he, heq, -⟩ := step_cmd h
  cases heq
  unfold SameButSelection
  cases c
  all_goals first | (cases hc; done) | skip
  all_goals
    cases hc
    obtain ⟨rfl, rfl⟩ := runCmd_ret_of he
    revert hst
    unfold_handlers
    repeat' split
    all_goals first
      | (intro _; exact Or.inl rfl)
      | (intro h; exact absurd rfl h)
      | (intro _; exact Or.inr ⟨Or.inl rfl, _, _, ‹mapFind s.extAdv _ = some _›, .data, rfl⟩)
      | (intro _; exact Or.inr ⟨Or.inr rfl, _, _, ‹mapFind s.extAdv _ = some _›, .data, rfl⟩)
      | (intro _; exact Or.inr ⟨Or.inl rfl, _, _, ‹mapFind s.extAdv _ = some _›, .scanResponse, rfl⟩)
      | (intro _; exact Or.inr ⟨Or.inr rfl, _, _, ‹mapFind s.extAdv _ = some _›, .scanResponse, rfl⟩)
      | (intro _; exact Or.inr ⟨Or.inl rfl, _, _, ‹mapFind s.extAdv _ = some _›, .periodicData, rfl⟩)
      | (intro _; exact Or.inr ⟨Or.inr rfl, _, _, ‹mapFind s.extAdv _ = some _›, .periodicData, rfl⟩)

/-- Two advertising sets agree on everything but the addresses they advertise with. -/
def SameButAddresses (a a' : ExtAdv) : Prop :=
  a' = { a with advertisingAddress := a'.advertisingAddress, targetAddress := a'.targetAddress }

theorem validateSets_same (cfg : Config) (rnd : Nat → Irk → Address) (sets : List EnabledSet) :
    ∀ (i : Nat) (s : State), (∀ set ∈ sets, (mapFind s.extAdv set.handle).isSome = true) →
      ∀ h, Option.Rel SameButAddresses (mapFind s.extAdv h) (mapFind (validateSets cfg rnd i sets s).1.extAdv h) := by
  have hrefl : ∀ (m : List (UInt8 × ExtAdv)) h, Option.Rel SameButAddresses (mapFind m h) (mapFind m h) := by
    intro m h; cases mapFind m h <;> constructor; rfl
  induction sets with
  | nil => intro i s _ h; exact hrefl _ _
  | cons set sets ih =>
    intro i s hall h
    obtain ⟨a, hf⟩ := Option.isSome_iff_exists.1 (hall set List.mem_cons_self)
    simp only [validateSets, checkedThen, hf, Option.getD_some]
    split
    · split
      · exact hrefl _ _
      · rename_i addr _
        generalize htgt : (if a.properties.directed = true then _ else a.targetAddress) = tgt
        generalize hr : (generateRpa (rnd (2 * i)) (peerDeviceAddress a.peerAddress a.peerAddressType)
          .loc s.resolvingList).1 = r
        have := ih (i + 1) { s with resolvingList := r, extAdv := mapSet s.extAdv set.handle { a with advertisingAddress := addr, targetAddress := tgt } } (by
          intro x hx
          simp only [mapFind_mapSet]
          split
          · rfl
          · exact hall x (List.mem_cons_of_mem _ hx)) h
        simp only [mapFind_mapSet] at this
        by_cases hh : set.handle = h
        · subst hh
          rw [if_pos rfl] at this
          rw [hf]
          revert this
          generalize mapFind (validateSets cfg rnd (i + 1) sets _).1.extAdv set.handle = o
          intro this
          cases this with
          | some h => exact Option.Rel.some (by unfold SameButAddresses at h ⊢; rw [h])
        · rw [if_neg hh] at this
          exact this
    · exact hrefl _ _

/-- **C44, partial (LE Set Extended Advertising Enable).** A rejected LE Set Extended
Advertising Enable changes nothing but the selection, generated local private addresses,
and the addresses the advertising sets use. -/
theorem C44_extended_enable_partial {cfg : Config} {s s' : State} {now rnd enable sets st out}
    (h : step cfg s (.cmd (.setExtAdvertisingEnable now rnd enable sets)) = .ok s' (some st) out)
    (hst : st ≠ .success) :
    SameButSelection { s with resolvingList := s'.resolvingList, extAdv := s'.extAdv } s' ∧
    s'.resolvingList.map RlEntry.content = s.resolvingList.map RlEntry.content ∧
    ∀ h, Option.Rel SameButAddresses (mapFind s.extAdv h) (mapFind s'.extAdv h) := by
  obtain ⟨e, he, heq, -⟩ := step_cmd h
  cases heq
  have hrefl : ∀ (m : List (UInt8 × ExtAdv)) h, Option.Rel SameButAddresses (mapFind m h) (mapFind m h) := by
    intro m h; cases mapFind m h <;> constructor; rfl
  refine ⟨?_, runCmd_content rfl he, ?_⟩
  · obtain ⟨m, r, x, rfl⟩ := extEnable_frame (runCmd_extEnable he); rfl
  · have he := runCmd_extEnable he
    simp only [setExtAdvertisingEnable] at he
    split at he
    · cases he; exact hrefl _
    · split at he
      · cases he
      · cases he; exact hrefl _
      · rename_i hch
        have hall := checkHandles_ok sets [] hch
        repeat' split at he
        all_goals first
          | (cases he; exact absurd rfl hst)
          | (cases he; exact hrefl _)
          | skip
        cases he
        exact validateSets_same cfg rnd sets 0 { s with extendedInUse := true } hall

/-- **C44, violated (LE Set Extended Advertising Enable).** A rejected LE Set Extended
Advertising Enable changes the address with which a running set advertises: the set 0
was transmitting with the private address 7, and transmits with the address 9 after a
command naming the sets 0 and 1 was refused because set 1 has incomplete data. -/
theorem C44_extended_enable_violated :
    ∃ s s' t t' o o', Reachable Config.default s ∧
      step Config.default s (.cmd (.setExtAdvertisingEnable 0 (fun _ _ => 9) true [⟨0, 0, 0⟩, ⟨1, 0, 0⟩])) =
        .ok s' (some .commandDisallowed) [] ∧
      step Config.default s (.env (.tick 0)) = .ok t none [o] ∧
      step Config.default s' (.env (.tick 0)) = .ok t' none [o'] ∧
      o = .extendedPdu 0 ⟨7, .randomDevice⟩ ⟨0, .publicDevice⟩ false false false 0 0 [] ∧
      o' = .extendedPdu 0 ⟨9, .randomDevice⟩ ⟨0, .publicDevice⟩ false false false 0 0 [] := by
  refine ⟨_, _, _, _, _, _, ⟨none, [.cmd (.addResolving .pub 1 5 6),
    .cmd (.setExtAdvertisingParameters 0 { exampleParams {} with own := .resolvableOrPublic, peer := 1 }),
    .cmd (.setExtAdvertisingParameters 1 (exampleParams {})),
    .cmd (.setExtAdvertisingData 1 .firstFragment [1]),
    .cmd (.setExtAdvertisingEnable 0 (fun _ _ => 7) true [⟨0, 0, 0⟩])], rfl⟩, rfl, rfl, rfl, rfl, rfl⟩

end Verif.Le
