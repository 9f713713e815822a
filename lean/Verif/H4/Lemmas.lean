import Verif.H4.Spec
/-! Helper lemmas for the H4 properties. -/

namespace Verif.H4

/-- Sequential composition of outcomes. -/
def Outcome.andThen (o : Outcome) (f : Parser → Outcome) : Outcome :=
  match o with
  | .done _ p ev =>
    match f p with
    | .done r p' ev' => .done r p' (ev ++ ev')
    | o => o
  | o => o

theorem feed_cons (p c cs) : feed p (c :: cs) = (consume p c).andThen (fun p' => feed p' cs) := by
  simp only [feed, Outcome.andThen]
  cases consume p c <;> rfl

theorem andThen_assoc (o f g) :
    Outcome.andThen (Outcome.andThen o f) g = Outcome.andThen o (fun p => (f p).andThen g) := by
  cases o with
  | abort => rfl
  | ub => rfl
  | done r p ev =>
    simp only [Outcome.andThen]
    cases f p with
    | abort => rfl
    | ub => rfl
    | done r' p' ev' =>
      simp only
      cases g p' with
      | abort => rfl
      | ub => rfl
      | done => simp

theorem feed_append (p a b) : feed p (a ++ b) = (feed p a).andThen (fun p' => feed p' b) := by
  induction a generalizing p with
  | nil =>
    simp only [List.nil_append, feed, Outcome.andThen]
    cases feed p b <;> simp
  | cons c cs ih =>
    simp only [List.cons_append, feed_cons, andThen_assoc]
    congr 1
    funext p'
    exact ih p'

/-- Feeding a piece in two parts. -/
theorem consume_split (p : Parser) (b : UInt8) (bs : List UInt8) (hb : bs ≠ [])
    (h : (b :: bs).length ≤ requested p) :
    consume p (b :: bs) = (consume p [b]).andThen (fun p' => consume p' bs) ∧
    ∃ p', consume p [b] = .done true p' [] ∧ bs.length ≤ requested p' := by
  obtain ⟨st, ty, lt, pk, w, rec⟩ := p
  have hl : 0 < bs.length := List.length_pos_iff.mpr hb
  obtain ⟨c, cs, rfl⟩ := List.exists_cons_of_ne_nil hb
  cases st with
  | type => simp [requested] at h
  | recovery => simp [requested] at h
  | preamble =>
    simp only [requested, List.length_cons] at h
    have h1 : ¬ (1 > w) := by omega
    have h2 : ¬ (w - 1 = 0) := by omega
    have h3 : ¬ (cs.length + 1 + 1 > w) := by omega
    have h4 : ¬ (cs.length + 1 > w - 1) := by omega
    have h5 : w - (cs.length + 1 + 1) = w - 1 - (cs.length + 1) := by omega
    refine ⟨?_, ?_⟩
    · simp only [consume, requested, consumePreamble, List.length_cons, List.length_nil,
        Nat.zero_add, h1, h2, h3, h4, h5, if_false, Outcome.andThen, List.append_assoc,
        List.cons_append, List.nil_append]
      have id_andThen : ∀ o : Outcome, o = (match o with
          | .done r p' ev' => .done r p' ([] ++ ev')
          | o => o) := by intro o; cases o <;> rfl
      exact id_andThen _
    · refine ⟨{ state := .preamble, hciType := ty, lastType := lt, packet := pk ++ [b], wanted := w - 1, recovery := rec }, ?_, ?_⟩
      · simp [consume, requested, consumePreamble, h1, h2]
      · simp only [requested, List.length_cons]; omega
  | payload =>
    simp only [requested, List.length_cons] at h
    have h1 : ¬ (1 > w) := by omega
    have h2 : ¬ (w - 1 = 0) := by omega
    have h3 : ¬ (cs.length + 1 + 1 > w) := by omega
    have h4 : ¬ (cs.length + 1 > w - 1) := by omega
    have h5 : w - (cs.length + 1 + 1) = w - 1 - (cs.length + 1) := by omega
    refine ⟨?_, ?_⟩
    · simp only [consume, requested, consumePayload, List.length_cons, List.length_nil,
        Nat.zero_add, h1, h2, h3, h4, h5, if_false, Outcome.andThen, List.append_assoc,
        List.cons_append, List.nil_append]
      split
      · simp only [ready]
        cases kindOf ty <;> simp
      · simp
    · refine ⟨{ state := .payload, hciType := ty, lastType := lt, packet := pk ++ [b], wanted := w - 1, recovery := rec }, ?_, ?_⟩
      · simp [consume, requested, consumePayload, h1, h2]
      · simp only [requested, List.length_cons]; omega

/-- Bytes fed one at a time. -/
def bytewise (bs : List UInt8) : List (List UInt8) := bs.map (fun b => [b])

theorem consume_ret_true (p c r p' ev) (hc : c ≠ []) (h : consume p c = .done r p' ev) :
    r = true := by
  obtain ⟨b, bs, rfl⟩ := List.exists_cons_of_ne_nil hc
  simp only [consume] at h
  have hready : ∀ q r p' ev, ready q = .done r p' ev → r = true := by
    intro q r p' ev h
    unfold ready at h
    split at h <;> simp_all
  split at h
  · simp at h
  · split at h
    · unfold consumeType at h; simp only at h
      split at h
      · split at h <;> simp_all
      · simp_all
    · unfold consumeRecovery at h
      have haux : ∀ (q : Parser), (if q.wanted = 0 then ready q else .done true q []) =
          Outcome.done r p' ev → r = true := by
        intro q hq
        split at hq
        · exact hready _ _ _ _ hq
        · simp_all
      dsimp only at h
      generalize hh : (p.packet ++ [b])[p.packet.length]? = ox at h
      generalize hh' : resetCommand[p.packet.length]? = oy at h
      match ox, oy, h with
      | some x, some y, h => exact haux _ h
      | none, some y, h => simp at h
      | none, none, h => simp at h
      | some x, none, h => simp at h
    · unfold consumePreamble at h; simp only at h
      split at h
      · split at h
        · simp_all
        · split at h
          · simp_all
          · split at h
            · exact hready _ _ _ _ h
            · simp_all
      · simp_all
    · unfold consumePayload at h; simp only at h
      split at h
      · exact hready _ _ _ _ h
      · simp_all

theorem feed_single (p c) (hc : c ≠ []) : feed p [c] = consume p c := by
  simp only [feed]
  cases h : consume p c with
  | abort => rfl
  | ub => rfl
  | done r p' ev => simp [consume_ret_true p c r p' ev hc h]

theorem consume_bytewise (bs : List UInt8) : ∀ (p : Parser), bs ≠ [] → bs.length ≤ requested p →
    consume p bs = feed p (bytewise bs) := by
  induction bs with
  | nil => intro p h; exact absurd rfl h
  | cons b bs ih =>
    intro p _ hle
    by_cases hbs : bs = []
    · subst hbs
      simp only [bytewise, List.map]
      rw [feed_single p [b] (by simp)]
    · obtain ⟨h1, p', h2, h3⟩ := consume_split p b bs hbs hle
      rw [h1]
      simp only [bytewise, List.map]
      rw [feed_cons, h2]
      simp only [Outcome.andThen]
      rw [ih p' hbs h3]
      rfl

theorem feed_bytewise (cs : List (List UInt8)) : ∀ (p : Parser), Respects p cs →
    feed p cs = feed p (bytewise cs.flatten) := by
  induction cs with
  | nil => intro p _; rfl
  | cons c cs ih =>
    intro p h
    obtain ⟨hne, hle, hrest⟩ := h
    rw [feed_cons, List.flatten_cons, bytewise, List.map_append, feed_append,
      consume_bytewise c p hne hle]
    simp only [Outcome.andThen]
    have := consume_bytewise c p hne hle
    simp only [bytewise] at this ⊢
    cases hf : feed p (List.map (fun b => [b]) c) with
    | abort => rfl
    | ub => rfl
    | done r p' ev =>
      simp only
      rw [hf] at this
      rw [ih p' (hrest r p' ev this)]
      rfl

/-- A parser waiting for a type octet. -/
structure Idle (p : Parser) : Prop where
  state : p.state = .type

/-- Feeding the payload of a packet. -/
theorem feed_payload (bs : List UInt8) (p : Parser) (k : Kind) (hs : p.state = .payload)
    (hk : kindOf p.hciType = some k) (hw : p.wanted = bs.length) (hne : bs ≠ []) :
    feed p (bytewise bs) =
      .done true { p with packet := p.packet ++ bs, wanted := 0, hciType := 0, state := .type }
        [(k, p.packet ++ bs)] := by
  rw [← consume_bytewise bs p hne (by simp [requested, hs, hw])]
  obtain ⟨b, bs', rfl⟩ := List.exists_cons_of_ne_nil hne
  simp only [consume, requested, hs, hw, Nat.lt_irrefl, gt_iff_lt, if_false, consumePayload,
    Nat.sub_self, if_true, ready, hk]

/-- Feeding the header and payload of a packet. -/
theorem feed_header (hd bs : List UInt8) (p : Parser) (k : Kind) (hs : p.state = .preamble)
    (hk : kindOf p.hciType = some k) (hp : p.packet = []) (hw : p.wanted = hd.length)
    (hne : hd ≠ []) (hlen : packetLength k hd = some bs.length) :
    feed p (bytewise (hd ++ bs)) =
      .done true { p with packet := hd ++ bs, wanted := 0, hciType := 0, state := .type }
        [(k, hd ++ bs)] := by
  rw [bytewise, List.map_append, feed_append]
  have h1 : feed p (bytewise hd) = consume p hd :=
    (consume_bytewise hd p hne (by simp [requested, hs, hw])).symm
  rw [bytewise] at h1
  rw [h1]
  obtain ⟨b, hd', rfl⟩ := List.exists_cons_of_ne_nil hne
  have h2 : consume p (b :: hd') =
      if bs.length = 0 then
        .done true { p with packet := b :: hd', wanted := 0, hciType := 0, state := .type }
          [(k, b :: hd')]
      else .done true { p with packet := b :: hd', wanted := bs.length, state := .payload } [] := by
    simp only [consume, requested, hs, hw, Nat.lt_irrefl, gt_iff_lt, if_false, consumePreamble,
      Nat.sub_self, if_true, hk, hp, List.nil_append, hlen, ready]
  rw [h2]
  by_cases hb : bs = []
  · subst hb
    simp [Outcome.andThen, feed]
  · have : ¬ bs.length = 0 := by simpa using hb
    simp only [this, if_false, Outcome.andThen]
    have := feed_payload bs { p with packet := b :: hd', wanted := bs.length, state := .payload } k
      rfl hk rfl hb
    simp only [bytewise] at this
    rw [this]
    simp

theorem idle_type (p : Parser) (b : UInt8) (k : Kind) (hs : p.state = .type)
    (hk : kindOf b = some k) :
    consume p [b] =
      .done true
        { p with lastType := b, packet := [], state := .preamble, hciType := b, wanted := preambleSize k }
        [] := by
  simp [consume, requested, hs, consumeType, hk]

/-- Length fields are decoded to the payload's length. -/
theorem or_shift (a b : Nat) (ha : a < 256) : a ||| (b <<< 8) = a + 256 * b := by
  rw [Nat.or_comm, ← Nat.shiftLeft_add_eq_or_of_lt (by simpa using ha), Nat.shiftLeft_eq]
  omega

theorem and_15 (a b : Nat) (ha : a < 16) : (a + 16 * b) &&& 0x0f = a := by
  have : (0x0f : Nat) = 2 ^ 4 - 1 := rfl
  rw [this, Nat.and_two_pow_sub_one_eq_mod]
  omega

theorem toNat_ofNat (n : Nat) (h : n < 256) : (UInt8.ofNat n).toNat = n := by
  simp
  omega

theorem feed_packet (pkt : Packet) (hwf : pkt.WellFormed) (p : Parser) (hs : p.state = .type) :
    ∃ p', feed p (bytewise pkt.encode) = .done true p' [(pkt.kind, pkt.bytes)] ∧
      p'.state = .type ∧ p'.recovery = p.recovery := by
  cases pkt with
  | command a b d =>
    simp only [Packet.WellFormed] at hwf
    simp only [Packet.encode, Packet.bytes, Packet.typeOctet, Packet.kind, bytewise, List.map_cons,
      List.cons_append, List.nil_append]
    rw [feed_cons, idle_type p 1 .command hs rfl]
    simp only [Outcome.andThen, preambleSize]
    have := feed_header [a, b, UInt8.ofNat d.length] d
      { p with lastType := 1, packet := [], state := .preamble, hciType := 1, wanted := 3 }
      .command rfl rfl rfl rfl (by simp)
      (by simp [packetLength, lengthOffset]; omega)
    simp only [bytewise, List.cons_append, List.nil_append, List.map_cons] at this
    rw [this]
    exact ⟨_, rfl, rfl, rfl⟩
  | acl a b d =>
    simp only [Packet.WellFormed] at hwf
    simp only [Packet.encode, Packet.bytes, Packet.typeOctet, Packet.kind, bytewise, List.map_cons,
      List.cons_append, List.nil_append]
    rw [feed_cons, idle_type p 2 .acl hs rfl]
    simp only [Outcome.andThen, preambleSize]
    have := feed_header [a, b, UInt8.ofNat (d.length % 256), UInt8.ofNat (d.length / 256)] d
      { p with lastType := 2, packet := [], state := .preamble, hciType := 2, wanted := 4 }
      .acl rfl rfl rfl rfl (by simp)
      (by
        simp only [packetLength, lengthOffset]
        simp only [List.getElem?_cons_succ, List.getElem?_cons_zero, Option.bind_eq_bind,
          Option.bind_some, Option.pure_def, Option.some.injEq]
        rw [toNat_ofNat _ (by omega), toNat_ofNat _ (by omega), or_shift _ _ (by omega)]
        omega)
    simp only [bytewise, List.cons_append, List.nil_append, List.map_cons] at this
    rw [this]
    exact ⟨_, rfl, rfl, rfl⟩
  | sco a b d =>
    simp only [Packet.WellFormed] at hwf
    simp only [Packet.encode, Packet.bytes, Packet.typeOctet, Packet.kind, bytewise, List.map_cons,
      List.cons_append, List.nil_append]
    rw [feed_cons, idle_type p 3 .sco hs rfl]
    simp only [Outcome.andThen, preambleSize]
    have := feed_header [a, b, UInt8.ofNat d.length] d
      { p with lastType := 3, packet := [], state := .preamble, hciType := 3, wanted := 3 }
      .sco rfl rfl rfl rfl (by simp)
      (by simp [packetLength, lengthOffset]; omega)
    simp only [bytewise, List.cons_append, List.nil_append, List.map_cons] at this
    rw [this]
    exact ⟨_, rfl, rfl, rfl⟩
  | event a d =>
    simp only [Packet.WellFormed] at hwf
    simp only [Packet.encode, Packet.bytes, Packet.typeOctet, Packet.kind, bytewise, List.map_cons,
      List.cons_append, List.nil_append]
    rw [feed_cons, idle_type p 4 .event hs rfl]
    simp only [Outcome.andThen, preambleSize]
    have := feed_header [a, UInt8.ofNat d.length] d
      { p with lastType := 4, packet := [], state := .preamble, hciType := 4, wanted := 2 }
      .event rfl rfl rfl rfl (by simp)
      (by simp [packetLength, lengthOffset]; omega)
    simp only [bytewise, List.cons_append, List.nil_append, List.map_cons] at this
    rw [this]
    exact ⟨_, rfl, rfl, rfl⟩
  | iso a b r d =>
    simp only [Packet.WellFormed] at hwf
    simp only [Packet.encode, Packet.bytes, Packet.typeOctet, Packet.kind, bytewise, List.map_cons,
      List.cons_append, List.nil_append]
    rw [feed_cons, idle_type p 5 .iso hs rfl]
    simp only [Outcome.andThen, preambleSize]
    have := feed_header [a, b, UInt8.ofNat (d.length % 256), UInt8.ofNat (d.length / 256 + 16 * r.val)] d
      { p with lastType := 5, packet := [], state := .preamble, hciType := 5, wanted := 4 }
      .iso rfl rfl rfl rfl (by simp)
      (by
        have := r.isLt
        simp only [packetLength, lengthOffset]
        simp only [List.getElem?_cons_succ, List.getElem?_cons_zero, Option.bind_eq_bind,
          Option.bind_some, Option.pure_def, Option.some.injEq]
        rw [toNat_ofNat _ (by omega), toNat_ofNat _ (by omega), and_15 _ _ (by omega),
          or_shift _ _ (by omega)]
        omega)
    simp only [bytewise, List.cons_append, List.nil_append, List.map_cons] at this
    rw [this]
    exact ⟨_, rfl, rfl, rfl⟩

theorem feed_packets (pkts : List Packet) (hwf : ∀ q ∈ pkts, q.WellFormed) :
    ∀ (p : Parser), p.state = .type →
    ∃ p', feed p (bytewise (encodeAll pkts)) =
        .done true p' (pkts.map fun q => (q.kind, q.bytes)) ∧
      p'.state = .type ∧ p'.recovery = p.recovery := by
  induction pkts with
  | nil => intro p hs; exact ⟨p, rfl, hs, rfl⟩
  | cons q qs ih =>
    intro p hs
    obtain ⟨p1, h1, h2, h3⟩ := feed_packet q (hwf q (by simp)) p hs
    obtain ⟨p2, h4, h5, h6⟩ := ih (fun x hx => hwf x (by simp [hx])) p1 h2
    refine ⟨p2, ?_, h5, h6.trans h3⟩
    simp only [encodeAll, List.map_cons, List.flatten_cons, bytewise, List.map_append] at *
    rw [feed_append, h1]
    simp only [Outcome.andThen]
    rw [h4]
    simp

/-! ## Recovery -/

/-- What the parser remembers in recovery after the bytes `seen` (all of them received in
recovery). -/
structure RecInv (seen : List UInt8) (p : Parser) : Prop where
  state : p.state = .recovery
  ty : p.hciType = 1
  wanted : p.wanted = 1
  noMatch : ¬ resetPattern <:+: seen
  track : ∃ k, k < 4 ∧ p.packet = resetPattern.take k ∧ resetPattern.take k <:+ seen ∧
    ∀ j, k < j → j < 4 → ¬ resetPattern.take j <:+ seen

theorem suffix_snoc (l s : List UInt8) (x b : UInt8) :
    (l ++ [x]) <:+ (s ++ [b]) ↔ x = b ∧ l <:+ s := by
  constructor
  · rintro ⟨t, ht⟩
    rw [← List.append_assoc] at ht
    have := List.append_inj' ht rfl
    exact ⟨by simpa using this.2, ⟨t, this.1⟩⟩
  · rintro ⟨rfl, ⟨t, rfl⟩⟩
    exact ⟨t, by simp⟩

theorem infix_snoc (l s : List UInt8) (b : UInt8) :
    l <:+: (s ++ [b]) ↔ l <:+: s ∨ l <:+ (s ++ [b]) := by
  rw [List.infix_concat_iff]
  simp [or_comm]

theorem suf0 (s : List UInt8) : ([] : List UInt8) <:+ s := List.nil_suffix

theorem suf1 (s : List UInt8) (b x : UInt8) : [x] <:+ (s ++ [b]) ↔ x = b := by
  have := suffix_snoc [] s x b
  simp at this
  simpa using this

theorem suf2 (s : List UInt8) (b x y : UInt8) : [x, y] <:+ (s ++ [b]) ↔ y = b ∧ [x] <:+ s :=
  suffix_snoc [x] s y b

theorem suf3 (s : List UInt8) (b x y z : UInt8) :
    [x, y, z] <:+ (s ++ [b]) ↔ z = b ∧ [x, y] <:+ s := suffix_snoc [x, y] s z b

theorem suf4 (s : List UInt8) (b x y z w : UInt8) :
    [x, y, z, w] <:+ (s ++ [b]) ↔ w = b ∧ [x, y, z] <:+ s := suffix_snoc [x, y, z] s w b

theorem suf_last (s : List UInt8) (x y : UInt8) (l l' : List UInt8) (h : (l ++ [x]) <:+ s)
    (h' : (l' ++ [y]) <:+ s) : x = y := by
  obtain ⟨t, rfl⟩ := h
  obtain ⟨t', h'⟩ := h'
  rw [← List.append_assoc, ← List.append_assoc] at h'
  have := (List.append_inj' h' rfl).2
  simpa using this.symm

theorem rec_step (seen : List UInt8) (p : Parser) (b : UInt8) (h : RecInv seen p) :
    (resetPattern <:+ (seen ++ [b]) ∧
      ∃ p', consume p [b] = .done true p' [(.command, [0x03, 0x0c, 0x00])] ∧ p'.state = .type ∧
        p'.recovery = p.recovery) ∨
    (¬ resetPattern <:+ (seen ++ [b]) ∧
      ∃ p', consume p [b] = .done true p' [] ∧ RecInv (seen ++ [b]) p' ∧
        p'.recovery = p.recovery) := by
  obtain ⟨hs, hty, hw, hno, k, hk, hpk, hsuf, hmax⟩ := h
  obtain ⟨st, ty, lt, pk, w, rec⟩ := p
  simp only at hs hty hw hpk
  subst hs hty hw hpk
  have key : k = 0 ∨ k = 1 ∨ k = 2 ∨ k = 3 := by omega
  have m1 : k < 1 → ¬ [1] <:+ seen := fun hh => by simpa [resetPattern] using hmax 1 hh (by omega)
  have m2 : k < 2 → ¬ [1, 3] <:+ seen := fun hh => by
    simpa [resetPattern] using hmax 2 hh (by omega)
  have m3 : k < 3 → ¬ [1, 3, 12] <:+ seen := fun hh => by
    simpa [resetPattern] using hmax 3 hh (by omega)
  have concl : ∀ (c : Bool) (q : Parser), (c = true ↔ (0 = b ∧ [1, 3, 12] <:+ seen)) →
      (c = true → consume ⟨.recovery, 1, lt, resetPattern.take k, 1, rec⟩ [b] =
        .done true q [(.command, [0x03, 0x0c, 0x00])] ∧ q.state = .type ∧ q.recovery = rec) →
      (c = false → consume ⟨.recovery, 1, lt, resetPattern.take k, 1, rec⟩ [b] =
        .done true q [] ∧ q.state = .recovery ∧ q.hciType = 1 ∧ q.wanted = 1 ∧ q.recovery = rec ∧
          ∃ k', k' < 4 ∧ q.packet = resetPattern.take k' ∧ resetPattern.take k' <:+ seen ++ [b] ∧
            ∀ j, k' < j → j < 4 → ¬ resetPattern.take j <:+ seen ++ [b]) →
      (resetPattern <:+ (seen ++ [b]) ∧
        ∃ p', consume ⟨.recovery, 1, lt, resetPattern.take k, 1, rec⟩ [b] =
            .done true p' [(.command, [0x03, 0x0c, 0x00])] ∧ p'.state = .type ∧
          p'.recovery = rec) ∨
      (¬ resetPattern <:+ (seen ++ [b]) ∧
        ∃ p', consume ⟨.recovery, 1, lt, resetPattern.take k, 1, rec⟩ [b] = .done true p' [] ∧
          RecInv (seen ++ [b]) p' ∧ p'.recovery = rec) := by
    intro c q hc ht hf
    have hpat : resetPattern <:+ (seen ++ [b]) ↔ c = true := by
      rw [hc]; exact suf4 seen b 1 3 12 0
    cases c with
    | true => exact Or.inl ⟨hpat.mpr rfl, q, ht rfl⟩
    | false =>
      obtain ⟨h1, h2, h3, h4, h5, h6⟩ := hf rfl
      refine Or.inr ⟨fun hh => by simpa using hpat.mp hh, q, h1, ?_, h5⟩
      refine ⟨h2, h3, h4, ?_, h6⟩
      rw [infix_snoc]
      rintro (hh | hh)
      · exact hno hh
      · simpa using hpat.mp hh
  have t1 : resetPattern.take 1 = [1] := rfl
  have t2 : resetPattern.take 2 = [1, 3] := rfl
  have t3 : resetPattern.take 3 = [1, 3, 12] := rfl
  have t0 : resetPattern.take 0 = [] := rfl
  -- a byte equal to the first octet of the pattern
  have fin1 : ∀ s : List UInt8, 1 = b → ∀ j, 1 < j → j < 4 → ¬ resetPattern.take j <:+ s ++ [b] := by
    intro s hb j h1 h4
    have : j = 2 ∨ j = 3 := by omega
    rcases this with rfl | rfl
    · rw [t2, suf2]; subst hb; simp
    · rw [t3, suf3]; subst hb; simp
  by_cases hb1 : b = 1
  · -- whatever was matched, the match restarts with this byte
    subst hb1
    refine concl false ⟨.recovery, 1, lt, [1], 1, rec⟩ (by simp) (by simp) (fun _ => ?_)
    refine ⟨?_, rfl, rfl, rfl, rfl, 1, by omega, rfl, ?_, fin1 seen rfl⟩
    · rcases key with rfl | rfl | rfl | rfl <;>
        simp [consume, requested, consumeRecovery, resetPattern, resetCommand]
    · rw [t1, suf1]
  · rcases key with rfl | rfl | rfl | rfl
    · -- nothing matched so far
      refine concl false ⟨.recovery, 1, lt, [], 1, rec⟩ (by simp [m3]) (by simp) (fun _ => ?_)
      refine ⟨?_, rfl, rfl, rfl, rfl, 0, by omega, rfl, suf0 _, ?_⟩
      · simp [consume, requested, consumeRecovery, resetPattern, resetCommand, hb1]
      · intro j h0 h4
        have : j = 1 ∨ j = 2 ∨ j = 3 := by omega
        rcases this with rfl | rfl | rfl
        · rw [t1, suf1]; exact fun h => hb1 h.symm
        · rw [t2, suf2]; simp [m1]
        · rw [t3, suf3]; simp [m2]
    · -- 01
      have n2 : ¬ [1, 3] <:+ seen := m2 (by omega)
      by_cases hb3 : b = 3
      · subst hb3
        refine concl false ⟨.recovery, 1, lt, [1, 3], 1, rec⟩ (by simp) (by simp) (fun _ => ?_)
        refine ⟨?_, rfl, rfl, rfl, rfl, 2, by omega, rfl, ?_, ?_⟩
        · simp [consume, requested, consumeRecovery, resetPattern, resetCommand]
        · rw [t2, suf2]; exact ⟨rfl, by simpa [resetPattern] using hsuf⟩
        · intro j h0 h4
          obtain rfl : j = 3 := by omega
          rw [t3, suf3]; simp
      · refine concl false ⟨.recovery, 1, lt, [], 1, rec⟩ (by simp [m3]) (by simp) (fun _ => ?_)
        refine ⟨?_, rfl, rfl, rfl, rfl, 0, by omega, rfl, suf0 _, ?_⟩
        · simp [consume, requested, consumeRecovery, resetPattern, resetCommand, hb1, hb3]
        · intro j h0 h4
          have : j = 1 ∨ j = 2 ∨ j = 3 := by omega
          rcases this with rfl | rfl | rfl
          · rw [t1, suf1]; exact fun h => hb1 h.symm
          · rw [t2, suf2]; rintro ⟨h, -⟩; exact hb3 h.symm
          · rw [t3, suf3]; simp [n2]
    · -- 01 03
      have n3 : ¬ [1, 3, 12] <:+ seen := m3 (by omega)
      have e3 : [1, 3] <:+ seen := by simpa [resetPattern] using hsuf
      have n1 : ¬ [1] <:+ seen := fun h => by
        have := suf_last seen 3 1 [1] [] e3 h; simp at this
      by_cases hb12 : b = 12
      · subst hb12
        refine concl false ⟨.recovery, 1, lt, [1, 3, 12], 1, rec⟩ (by simp) (by simp) (fun _ => ?_)
        refine ⟨?_, rfl, rfl, rfl, rfl, 3, by omega, rfl, ?_, ?_⟩
        · simp [consume, requested, consumeRecovery, resetPattern, resetCommand]
        · rw [t3, suf3]; exact ⟨rfl, e3⟩
        · intro j h0 h4; omega
      · refine concl false ⟨.recovery, 1, lt, [], 1, rec⟩ (by simp [n3]) (by simp) (fun _ => ?_)
        refine ⟨?_, rfl, rfl, rfl, rfl, 0, by omega, rfl, suf0 _, ?_⟩
        · simp [consume, requested, consumeRecovery, resetPattern, resetCommand, hb1, hb12]
        · intro j h0 h4
          have : j = 1 ∨ j = 2 ∨ j = 3 := by omega
          rcases this with rfl | rfl | rfl
          · rw [t1, suf1]; exact fun h => hb1 h.symm
          · rw [t2, suf2]; simp [n1]
          · rw [t3, suf3]; rintro ⟨h, -⟩; exact hb12 h.symm
    · -- 01 03 0c
      have e3 : [1, 3, 12] <:+ seen := by simpa [resetPattern] using hsuf
      have n1 : ¬ [1] <:+ seen := fun h => by
        have := suf_last seen 12 1 [1, 3] [] e3 h; simp at this
      have n2 : ¬ [1, 3] <:+ seen := fun h => by
        have := suf_last seen 12 3 [1, 3] [1] e3 h; simp at this
      by_cases hb0 : b = 0
      · subst hb0
        refine concl true ⟨.type, 0, lt, [3, 12, 0], 0, rec⟩ (by simp [e3]) (fun _ => ?_) (by simp)
        refine ⟨?_, rfl, rfl⟩
        simp [consume, requested, consumeRecovery, resetPattern, resetCommand, ready, kindOf]
      · refine concl false ⟨.recovery, 1, lt, [], 1, rec⟩ (by simp; exact fun h => absurd h.symm hb0)
          (by simp) (fun _ => ?_)
        refine ⟨?_, rfl, rfl, rfl, rfl, 0, by omega, rfl, suf0 _, ?_⟩
        · simp [consume, requested, consumeRecovery, resetPattern, resetCommand, hb1, hb0]
        · intro j h0 h4
          have : j = 1 ∨ j = 2 ∨ j = 3 := by omega
          rcases this with rfl | rfl | rfl
          · rw [t1, suf1]; exact fun h => hb1 h.symm
          · rw [t2, suf2]; simp [n1]
          · rw [t3, suf3]; simp [n2]

theorem rec_run (bs : List UInt8) : ∀ (seen : List UInt8) (p : Parser), RecInv seen p →
    (¬ resetPattern <:+: (seen ++ bs) →
      ∃ p', feed p (bytewise bs) = .done true p' [] ∧ RecInv (seen ++ bs) p' ∧
        p'.recovery = p.recovery) := by
  induction bs with
  | nil => intro seen p h _; exact ⟨p, rfl, by simpa using h, rfl⟩
  | cons b bs ih =>
    intro seen p h hno
    have hno' : ¬ resetPattern <:+ (seen ++ [b]) := by
      intro hh
      apply hno
      have : seen ++ b :: bs = (seen ++ [b]) ++ bs := by simp
      rw [this]
      exact (hh.isInfix).trans (List.prefix_append _ _).isInfix
    rcases rec_step seen p b h with ⟨h1, -⟩ | ⟨-, p1, h1, h2, h3⟩
    · exact absurd h1 hno'
    · obtain ⟨p2, h4, h5, h6⟩ := ih (seen ++ [b]) p1 h2 (by simpa using hno)
      refine ⟨p2, ?_, by simpa using h5, h6.trans h3⟩
      simp only [bytewise, List.map_cons] at *
      rw [feed_cons, h1]
      simp only [Outcome.andThen]
      rw [h4]
      simp

theorem rec_enter (p : Parser) (b : UInt8) (hs : p.state = .type) (hr : p.recovery = true)
    (hb : kindOf b = none) :
    ∃ p', consume p [b] = .done true p' [] ∧ RecInv [] p' ∧ p'.recovery = true := by
  refine ⟨{ p with lastType := b, packet := [], state := .recovery, hciType := 1, wanted := 1 },
    ?_, ?_, hr⟩
  · simp [consume, requested, hs, consumeType, hb, hr]
  · refine ⟨rfl, rfl, rfl, by simp [resetPattern], 0, by omega, rfl, by simp, ?_⟩
    intro j h0 h4
    have : j = 1 ∨ j = 2 ∨ j = 3 := by omega
    rcases this with rfl | rfl | rfl <;> simp [resetPattern]

/-! ## Progress -/

/-- Invariant of the reachable parser states. -/
def Inv (p : Parser) : Prop :=
  match p.state with
  | .type => True
  | .preamble => ∃ k, kindOf p.hciType = some k ∧ 0 < p.wanted ∧
      p.packet.length + p.wanted = preambleSize k
  | .payload => ∃ k, kindOf p.hciType = some k ∧ 0 < p.wanted
  | .recovery => p.hciType = 1 ∧ p.wanted = 1 ∧ p.packet.length < 4

theorem ready_ok (p : Parser) (k : Kind) (h : kindOf p.hciType = some k) :
    ready p = .done true { p with hciType := 0, state := .type } [(k, p.packet)] := by
  simp [ready, h]

theorem packetLength_ok (k : Kind) (l : List UInt8) (h : l.length = preambleSize k) :
    ∃ n, packetLength k l = some n := by
  cases k <;> simp only [preambleSize] at h
  · match l, h with
    | [a, b, c], _ => simp [packetLength, lengthOffset]
  · match l, h with
    | [a, b, c, d], _ => simp [packetLength, lengthOffset]
  · match l, h with
    | [a, b, c], _ => simp [packetLength, lengthOffset]
  · match l, h with
    | [a, b], _ => simp [packetLength, lengthOffset]
  · match l, h with
    | [a, b, c, d], _ => simp [packetLength, lengthOffset]

theorem inv_consume (p : Parser) (c : List UInt8) (h : Inv p) (hc : c ≠ [])
    (hle : c.length ≤ requested p) :
    (∃ p' ev, consume p c = .done true p' ev ∧ Inv p' ∧ p'.recovery = p.recovery) ∨
    (consume p c = .abort ∧ p.recovery = false ∧ p.state = .type ∧
      ∃ b, c = [b] ∧ kindOf b = none) := by
  obtain ⟨b, bs, rfl⟩ := List.exists_cons_of_ne_nil hc
  have hgt : ¬ ((b :: bs).length > requested p) := by omega
  obtain ⟨st, ty, lt, pk, w, rec⟩ := p
  cases st with
  | type =>
    have hbs : bs = [] := by
      cases bs with
      | nil => rfl
      | cons => simp [requested] at hle
    subst hbs
    cases hk : kindOf b with
    | some k =>
      left
      refine ⟨_, _, idle_type _ b k rfl hk, ?_, rfl⟩
      refine ⟨k, hk, ?_, by simp⟩
      cases k <;> simp [preambleSize]
    | none =>
      cases rec with
      | true =>
        left
        refine ⟨{ state := .recovery, hciType := 1, lastType := b, packet := [], wanted := 1, recovery := true }, [], ?_, ?_, rfl⟩
        · simp [consume, requested, consumeType, hk]
        · simp [Inv]
      | false =>
        right
        refine ⟨?_, rfl, rfl, b, rfl, hk⟩
        simp [consume, requested, consumeType, hk]
  | preamble =>
    left
    obtain ⟨k, hk, hw, hlen⟩ := h
    simp only [requested] at hk hw hlen hgt hle
    simp only [consume, requested, hgt, if_false, consumePreamble]
    by_cases hz : w - (b :: bs).length = 0
    · have hl : (pk ++ b :: bs).length = preambleSize k := by
        rw [List.length_append]; omega
      obtain ⟨n, hn⟩ := packetLength_ok k _ hl
      simp only [hz, if_true, hk, hn]
      by_cases hn0 : n = 0
      · simp only [hn0, if_true]
        refine ⟨_, _, ready_ok _ k hk, ?_, rfl⟩
        simp [Inv]
      · simp only [hn0, if_false]
        refine ⟨_, _, rfl, ?_, rfl⟩
        exact ⟨k, hk, Nat.pos_of_ne_zero hn0⟩
    · simp only [hz, if_false]
      refine ⟨_, _, rfl, ?_, rfl⟩
      refine ⟨k, hk, Nat.pos_of_ne_zero hz, ?_⟩
      simp only [List.length_append]
      omega
  | payload =>
    left
    obtain ⟨k, hk, hw⟩ := h
    simp only [requested] at hk hw hgt hle
    simp only [consume, requested, hgt, if_false, consumePayload]
    by_cases hz : w - (b :: bs).length = 0
    · simp only [hz, if_true]
      refine ⟨_, _, ready_ok _ k hk, ?_, rfl⟩
      simp [Inv]
    · simp only [hz, if_false]
      exact ⟨_, _, rfl, ⟨k, hk, Nat.pos_of_ne_zero hz⟩, rfl⟩
  | recovery =>
    left
    obtain ⟨hty, hw, hl⟩ := h
    simp only at hty hw hl
    subst hty hw
    have hbs : bs = [] := by
      cases bs with
      | nil => rfl
      | cons => simp [requested] at hle
    subst hbs
    have hx : (pk ++ [b])[pk.length]? = some b := by simp
    have hy : ∃ y, resetCommand[pk.length]? = some y := by
      have : pk.length < resetCommand.length := by simpa [resetCommand] using hl
      exact ⟨_, List.getElem?_eq_getElem this⟩
    obtain ⟨y, hy⟩ := hy
    simp only [consume, requested, List.length_cons, List.length_nil, Nat.zero_add, gt_iff_lt,
      Nat.lt_irrefl, if_false, consumeRecovery, hx, hy]
    by_cases hxy : b ≠ y
    · simp only [hxy, if_true, not_false_eq_true, ne_eq]
      refine ⟨{ state := .recovery, hciType := 1, lastType := lt, packet := if b = 1 then [b] else [], wanted := 1, recovery := rec }, [], ?_, ?_, rfl⟩
      · by_cases hb1 : b = 1 <;> simp [hb1, resetCommand]
      · by_cases hb1 : b = 1 <;> simp [hb1, Inv]
    · simp only [hxy, if_false]
      by_cases hl4 : (pk ++ [b]).length = resetCommand.length
      · simp only [hl4, if_true]
        refine ⟨_, _, ready_ok _ .command rfl, ?_, rfl⟩
        simp [Inv]
      · simp only [hl4, if_false]
        refine ⟨{ state := .recovery, hciType := 1, lastType := lt, packet := pk ++ [b], wanted := 1, recovery := rec }, [], by simp, ?_, rfl⟩
        have : (pk ++ [b]).length ≠ 4 := by simpa [resetCommand] using hl4
        simp only [Inv, List.length_append, List.length_cons, List.length_nil, true_and] at *
        omega

end Verif.H4
