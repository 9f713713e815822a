import Verif.H4.Props
import Verif.Pdl.Props
/-!
# C84: the declared packets in the H4 stream
-/
namespace Verif.Port

open Pdl (Packet Vals Fmt bits num octets unpack serialize parse)

theorem bits_add (a : Nat) : ∀ b n, bits (a + b) n = bits a n ++ bits b (n / 2 ^ a) := by
  induction a with
  | zero => intro b n; simp [bits]
  | succ a ih =>
    intro b n
    rw [show a + 1 + b = (a + b) + 1 by omega]
    simp only [bits, ih, List.cons_append, Nat.div_div_eq_div_mul]
    rw [show 2 * 2 ^ a = 2 ^ (a + 1) by rw [Nat.pow_succ]; omega]

theorem octets_append (n : Nat) : ∀ (a b : List Bool), a.length = 8 * n → octets (a ++ b) = octets a ++ octets b := by
  induction n with
  | zero => intro a b h; have := List.eq_nil_of_length_eq_zero h; subst this; rfl
  | succ n ih =>
    intro a b h
    match a, h with
    | x0 :: x1 :: x2 :: x3 :: x4 :: x5 :: x6 :: x7 :: a, h =>
      simp only [List.length_cons] at h
      simp only [List.cons_append, octets, ih a b (by omega)]

theorem octets_eight (n : Nat) (h : n < 256) : octets (bits 8 n) = [n] := by
  have := Pdl.octets_unpack [n] (by simpa using h)
  simpa [unpack] using this

theorem octets_sixteen (n : Nat) (h : n < 65536) : octets (bits 16 n) = [n % 256, n / 256] := by
  have := Pdl.octets_unpack [n % 256, n / 256] (by simp; omega)
  rw [← this]
  congr 1
  have hb : bits 8 n = bits 8 (n % 256) := by
    have : ∀ a b, bits a b = bits a (b % 2 ^ a) := by
      intro a
      induction a with
      | zero => intro b; rfl
      | succ a ih =>
        intro b
        simp only [bits]
        have e1 : b % 2 ^ (a + 1) % 2 = b % 2 := Nat.mod_mod_of_dvd _ ⟨2 ^ a, by rw [Nat.pow_succ]; omega⟩
        have e2 : b % 2 ^ (a + 1) / 2 = (b / 2) % 2 ^ a := by
          rw [show 2 ^ (a + 1) = 2 * 2 ^ a by rw [Nat.pow_succ]; omega, Nat.mod_mul_right_div_self]
        rw [e1, e2, ← ih]
    exact this 8 n
  rw [show (16 : Nat) = 8 + 8 from rfl, bits_add, hb]
  simp [unpack]

/-- Octets as octets. -/
def bytes (l : List Nat) : List UInt8 := l.map UInt8.ofNat

theorem bytes_back (l : List Nat) (h : ∀ x ∈ l, x < 256) : (bytes l).map UInt8.toNat = l := by
  simp only [bytes, List.map_map]
  conv => rhs; rw [← List.map_id l]
  apply List.map_congr_left
  intro x hx
  simp only [Function.comp, id, UInt8.toNat_ofNat']
  have := h x hx
  omega

theorem two (l : List Bool) (h : l.length = 16) : ∃ a b, bytes (octets l) = [a, b] := by
  have := Pdl.octets_length l 2 (by omega)
  match hl : octets l, this with
  | [a, b], _ => exact ⟨_, _, rfl⟩

theorem one (l : List Bool) (h : l.length = 8) : ∃ a, bytes (octets l) = [a] := by
  have := Pdl.octets_length l 1 (by omega)
  match hl : octets l, this with
  | [a], _ => exact ⟨_, rfl⟩

/-- Sixteen bits, a length of eight bits, and as many octets. -/
theorem frame_short (h x : List Bool) (m : Nat) (hh : h.length = 16) (hx : x.length = 8 * m) (hm : m < 256) :
    ∃ a b d, bytes (octets (h ++ (bits 8 m ++ x))) = [a, b, UInt8.ofNat d.length] ++ d ∧ d.length < 256 := by
  obtain ⟨a, b, e⟩ := two h hh
  have hd : (bytes (octets x)).length = m := by simp [bytes, Pdl.octets_length x m hx]
  refine ⟨a, b, bytes (octets x), ?_, by omega⟩
  rw [octets_append 2 h _ (by omega), octets_append 1 (bits 8 m) x (by simp [Pdl.bits_length]), octets_eight m hm, hd]
  simp only [bytes, List.map_append] at e ⊢
  rw [e]; rfl

theorem frame_long (h x : List Bool) (m : Nat) (hh : h.length = 16) (hx : x.length = 8 * m) (hm : m < 65536) :
    ∃ a b d, bytes (octets (h ++ (bits 16 m ++ x))) = [a, b, UInt8.ofNat (d.length % 256), UInt8.ofNat (d.length / 256)] ++ d
      ∧ d.length = m := by
  obtain ⟨a, b, e⟩ := two h hh
  have hd : (bytes (octets x)).length = m := by simp [bytes, Pdl.octets_length x m hx]
  refine ⟨a, b, bytes (octets x), ?_, hd⟩
  rw [octets_append 2 h _ (by omega), octets_append 2 (bits 16 m) x (by simp [Pdl.bits_length]), octets_sixteen m hm, hd]
  simp only [bytes, List.map_append] at e ⊢
  rw [e]; rfl

theorem frame_event (h x : List Bool) (m : Nat) (hh : h.length = 8) (hx : x.length = 8 * m) (hm : m < 256) :
    ∃ a d, bytes (octets (h ++ (bits 8 m ++ x))) = [a, UInt8.ofNat d.length] ++ d ∧ d.length < 256 := by
  obtain ⟨a, e⟩ := one h hh
  have hd : (bytes (octets x)).length = m := by simp [bytes, Pdl.octets_length x m hx]
  refine ⟨a, bytes (octets x), ?_, by omega⟩
  rw [octets_append 1 h _ (by omega), octets_append 1 (bits 8 m) x (by simp [Pdl.bits_length]), octets_eight m hm, hd]
  simp only [bytes, List.map_append] at e ⊢
  rw [e]; rfl

theorem family_body (f : List Packet) (b : Fmt)
    (h : f.all (fun p => match p.levels with | [] => false | l :: _ => decide (l.body = b)) = true) (p : Packet) (hp : p ∈ f) :
    ∃ l ls, p.levels = l :: ls ∧ l.body = b := by
  have := List.all_eq_true.mp h p hp
  split at this
  · cases this
  · rename_i l ls hl
    exact ⟨l, ls, hl, of_decide_eq_true this⟩

/-- What the derived bodies make of a payload is a number of octets. -/
theorem inner (p : Packet) (hp : p ∈ Pdl.declared) (l : Pdl.Level) (ls : List Pdl.Level) (h : p.levels = l :: ls) (vs : Vals ls)
    (pl : List Nat) : ∃ m, Pdl.packetWidth ls vs pl.length = 8 * m ∧ (Pdl.encAll ls vs (unpack pl)).length = 8 * m := by
  have hl := Pdl.encAll_length ls vs (unpack pl) pl.length (Pdl.unpack_length pl)
  have hw := Pdl.wf_of hp
  rw [h] at hw
  have ha : Pdl.packetWidth ls vs pl.length % 8 = 0 := by
    cases ls with
    | nil => simp [Pdl.packetWidth]
    | cons m ms =>
      have : Pdl.wfAll (m :: ms) = true := by simp only [Pdl.wfAll, Bool.and_eq_true] at hw; exact hw.2
      exact Pdl.packetWidth_aligned _ vs pl.length this
  exact ⟨Pdl.packetWidth ls vs pl.length / 8, by omega, by omega⟩

theorem command_framed (p : Packet) (hp : p ∈ Pdl.Hci.packetsCommand) (v : Vals p.levels) (pl : List Nat)
    (h : p.legal v pl = true) : ∃ q : H4.Packet, q.WellFormed ∧ q.kind = .command ∧ q.bytes = bytes (serialize p v pl) := by
  have hd : p ∈ Pdl.declared := List.mem_flatten.mpr ⟨_, by simp [Pdl.families], hp⟩
  obtain ⟨l, ls, e, hb⟩ := family_body _ Pdl.Hci.bodyCommand (by decide +kernel) p hp
  obtain ⟨name, levels⟩ := p
  simp only at e
  subst e
  obtain ⟨body, cond⟩ := l
  simp only at hb
  subst hb
  obtain ⟨⟨op, ⟨⟩⟩, vs⟩ := v
  obtain ⟨m, h1, h2⟩ := inner _ hd _ ls rfl vs pl
  obtain ⟨hf, -, -⟩ := (Pdl.legal_iff _ _ _).mp h
  have hm : m < 256 := by
    simp only [Pdl.fitsAll, Pdl.Hci.bodyCommand, Pdl.fits, Pdl.announced, h1, if_true, Bool.and_eq_true, decide_eq_true_eq] at hf
    omega
  obtain ⟨a, b, d, h3, h4⟩ := frame_short (bits 16 op) (Pdl.encAll ls vs (unpack pl)) m (Pdl.bits_length _ _) h2 hm
  refine ⟨.command a b d, h4, rfl, ?_⟩
  simp only [serialize, Pdl.encAll, Pdl.Hci.bodyCommand, Pdl.enc, Pdl.lenOf, if_true, h2, List.append_nil]
  rw [show 8 * m / 8 = m by omega, h3]; rfl

theorem event_framed (p : Packet) (hp : p ∈ Pdl.Hci.packetsEvent) (v : Vals p.levels) (pl : List Nat)
    (h : p.legal v pl = true) : ∃ q : H4.Packet, q.WellFormed ∧ q.kind = .event ∧ q.bytes = bytes (serialize p v pl) := by
  have hd : p ∈ Pdl.declared := List.mem_flatten.mpr ⟨_, by simp [Pdl.families], hp⟩
  obtain ⟨l, ls, e, hb⟩ := family_body _ Pdl.Hci.bodyEvent (by decide +kernel) p hp
  obtain ⟨name, levels⟩ := p
  simp only at e
  subst e
  obtain ⟨body, cond⟩ := l
  simp only at hb
  subst hb
  obtain ⟨⟨op, ⟨⟩⟩, vs⟩ := v
  obtain ⟨m, h1, h2⟩ := inner _ hd _ ls rfl vs pl
  obtain ⟨hf, -, -⟩ := (Pdl.legal_iff _ _ _).mp h
  have hm : m < 256 := by
    simp only [Pdl.fitsAll, Pdl.Hci.bodyEvent, Pdl.fits, Pdl.announced, h1, if_true, Bool.and_eq_true, decide_eq_true_eq] at hf
    omega
  obtain ⟨a, d, h3, h4⟩ := frame_event (bits 8 op) (Pdl.encAll ls vs (unpack pl)) m (Pdl.bits_length _ _) h2 hm
  refine ⟨.event a d, h4, rfl, ?_⟩
  simp only [serialize, Pdl.encAll, Pdl.Hci.bodyEvent, Pdl.enc, Pdl.lenOf, if_true, h2, List.append_nil]
  rw [show 8 * m / 8 = m by omega, h3]; rfl

theorem acl_framed (p : Packet) (hp : p ∈ Pdl.Hci.packetsAcl) (v : Vals p.levels) (pl : List Nat)
    (h : p.legal v pl = true) : ∃ q : H4.Packet, q.WellFormed ∧ q.kind = .acl ∧ q.bytes = bytes (serialize p v pl) := by
  have hd : p ∈ Pdl.declared := List.mem_flatten.mpr ⟨_, by simp [Pdl.families], hp⟩
  obtain ⟨l, ls, e, hb⟩ := family_body _ Pdl.Hci.bodyAcl (by decide +kernel) p hp
  obtain ⟨name, levels⟩ := p
  simp only at e
  subst e
  obtain ⟨body, cond⟩ := l
  simp only at hb
  subst hb
  obtain ⟨⟨x, y, z, ⟨⟩⟩, vs⟩ := v
  obtain ⟨m, h1, h2⟩ := inner _ hd _ ls rfl vs pl
  obtain ⟨hf, -, -⟩ := (Pdl.legal_iff _ _ _).mp h
  have hm : m < 65536 := by
    simp only [Pdl.fitsAll, Pdl.Hci.bodyAcl, Pdl.fits, Pdl.announced, h1, if_true, Bool.and_eq_true, decide_eq_true_eq] at hf
    omega
  obtain ⟨a, b, d, h3, h4⟩ := frame_long (bits 12 x ++ (bits 2 y ++ bits 2 z)) (Pdl.encAll ls vs (unpack pl)) m
    (by simp [Pdl.bits_length]) h2 hm
  refine ⟨.acl a b d, by simp only [H4.Packet.WellFormed]; omega, rfl, ?_⟩
  simp only [serialize, Pdl.encAll, Pdl.Hci.bodyAcl, Pdl.enc, Pdl.lenOf, if_true, h2, List.append_nil]
  simp only [List.append_assoc] at h3
  rw [show 8 * m / 8 = m by omega, h3]; rfl

theorem sco_framed (p : Packet) (hp : p ∈ Pdl.Hci.packetsSco) (v : Vals p.levels) (pl : List Nat)
    (h : p.legal v pl = true) : ∃ q : H4.Packet, q.WellFormed ∧ q.kind = .sco ∧ q.bytes = bytes (serialize p v pl) := by
  have hd : p ∈ Pdl.declared := List.mem_flatten.mpr ⟨_, by simp [Pdl.families], hp⟩
  obtain ⟨l, ls, e, hb⟩ := family_body _ Pdl.Hci.bodySco (by decide +kernel) p hp
  obtain ⟨name, levels⟩ := p
  simp only at e
  subst e
  obtain ⟨body, cond⟩ := l
  simp only at hb
  subst hb
  obtain ⟨⟨x, y, xs, ⟨⟩⟩, vs⟩ := v
  have h8 : ∀ x : (Fmt.uint 8 .done).T, (Pdl.enc (.uint 8 .done) x []).length = 8 := by
    rintro ⟨x, u⟩; simp [Pdl.enc, Pdl.bits_length]
  have w8 : ∀ x : (Fmt.uint 8 .done).T, Pdl.width (.uint 8 .done) x 0 = 8 := by
    rintro ⟨x, u⟩; simp [Pdl.width]
  have hx : (Pdl.padTo 0 (List.flatMap (fun x => Pdl.enc (.uint 8 .done) x []) xs)).length = 8 * xs.length := by
    simp only [Pdl.padTo, Nat.mul_zero, Nat.zero_sub, List.replicate_zero, List.append_nil]
    clear h
    induction xs with
    | nil => rfl
    | cons x xs ih =>
      rw [List.flatMap_cons, List.length_append, ih, h8, List.length_cons]; omega
  have hw : (xs.map (fun x => Pdl.width (.uint 8 .done) x 0)).sum = 8 * xs.length := by
    clear h hx
    induction xs with
    | nil => rfl
    | cons x xs ih =>
      rw [List.map_cons, List.sum_cons, ih, w8, List.length_cons]; omega
  obtain ⟨hf, -, -⟩ := (Pdl.legal_iff _ _ _).mp h
  have hm : xs.length < 256 := by
    simp only [Pdl.fitsAll, Pdl.Hci.bodySco, Pdl.fits, Pdl.announced, hw, if_true, Bool.and_eq_true, decide_eq_true_eq] at hf
    have := hf.1.1.2.2.1
    simp at this
    omega
  obtain ⟨a, b, d, h3, h4⟩ := frame_short (bits 12 x ++ (bits 2 y ++ bits 2 0)) _ xs.length (by simp [Pdl.bits_length]) hx hm
  refine ⟨.sco a b d, h4, rfl, ?_⟩
  simp only [Pdl.padTo, Nat.mul_zero, Nat.zero_sub, List.replicate_zero, List.append_nil] at hx
  simp only [serialize, Pdl.encAll, Pdl.Hci.bodySco, Pdl.enc, Pdl.lenOf, if_true, hx, List.append_nil]
  simp only [List.append_assoc] at h3
  simp only [reduceCtorEq, if_false]
  rw [show 8 * xs.length / 8 = xs.length by omega, h3]; rfl

theorem iso_framed (p : Packet) (hp : p ∈ Pdl.Hci.packetsIso) (v : Vals p.levels) (pl : List Nat)
    (h : p.legal v pl = true) (hs : (serialize p v pl).length < 4100) : ∃ q : H4.Packet, q.WellFormed ∧ q.kind = .iso ∧ q.bytes = bytes (serialize p v pl) := by
  have hd : p ∈ Pdl.declared := List.mem_flatten.mpr ⟨_, by simp [Pdl.families], hp⟩
  obtain ⟨l, ls, e, hb⟩ := family_body _ Pdl.Hci.bodyIso (by decide +kernel) p hp
  obtain ⟨name, levels⟩ := p
  simp only at e
  subst e
  obtain ⟨body, cond⟩ := l
  simp only at hb
  subst hb
  obtain ⟨⟨x, y, z, ⟨⟩⟩, vs⟩ := v
  obtain ⟨m, h1, h2⟩ := inner _ hd _ ls rfl vs pl
  have hser : serialize ⟨name, ⟨Pdl.Hci.bodyIso, cond⟩ :: ls⟩ ((x, y, z, ()), vs) pl
      = octets ((bits 12 x ++ (bits 2 y ++ (bits 1 z ++ bits 1 0))) ++ ((bits 14 m ++ bits 2 0) ++ Pdl.encAll ls vs (unpack pl))) := by
    simp only [serialize, Pdl.encAll, Pdl.Hci.bodyIso, Pdl.enc, Pdl.lenOf, if_true, h2, List.append_nil, List.append_assoc]
    rw [show 8 * m / 8 = m by omega]
  have hm : m < 4096 := by
    rw [hser] at hs
    rw [Pdl.octets_length _ (4 + m) (by simp [Pdl.bits_length, h2]; omega)] at hs
    omega
  have h16 : bits 14 m ++ bits 2 0 = bits 16 m := by
    rw [show (16 : Nat) = 14 + 2 from rfl, bits_add, show m / 2 ^ 14 = 0 by omega]
  rw [h16] at hser
  obtain ⟨a, b, d, h3, h4⟩ := frame_long (bits 12 x ++ (bits 2 y ++ (bits 1 z ++ bits 1 0))) (Pdl.encAll ls vs (unpack pl)) m
    (by simp [Pdl.bits_length]) h2 (by omega)
  refine ⟨.iso a b 0 d, by simp only [H4.Packet.WellFormed]; omega, rfl, ?_⟩
  rw [hser, h3]
  simp [H4.Packet.bytes]

/-- C84: every command, event, ACL and SCO packet that is declared in the packet description files, with any values that can be put
in it, has the frame that the H4 stream is made of: its length field says how many octets follow. An isochronous data packet has it
if it has fewer than 4100 octets. -/
theorem C84_framed_partial (k : H4.Kind) (f : List Packet) (hk : (k, f) ∈ [(H4.Kind.command, Pdl.Hci.packetsCommand),
      (.event, Pdl.Hci.packetsEvent), (.acl, Pdl.Hci.packetsAcl), (.sco, Pdl.Hci.packetsSco), (.iso, Pdl.Hci.packetsIso)])
    (p : Packet) (hp : p ∈ f) (v : Vals p.levels) (pl : List Nat) (h : p.legal v pl = true)
    (hs : k = .iso → (serialize p v pl).length < 4100) :
    ∃ q : H4.Packet, q.WellFormed ∧ q.kind = k ∧ q.bytes.map UInt8.toNat = serialize p v pl := by
  simp only [List.mem_cons, Prod.mk.injEq, List.not_mem_nil, or_false] at hk
  have hb := bytes_back (serialize p v pl) (Pdl.octets_lt _)
  rcases hk with ⟨rfl, rfl⟩ | ⟨rfl, rfl⟩ | ⟨rfl, rfl⟩ | ⟨rfl, rfl⟩ | ⟨rfl, rfl⟩
  · obtain ⟨q, h1, h2, h3⟩ := command_framed p hp v pl h
    exact ⟨q, h1, h2, by rw [h3, hb]⟩
  · obtain ⟨q, h1, h2, h3⟩ := event_framed p hp v pl h
    exact ⟨q, h1, h2, by rw [h3, hb]⟩
  · obtain ⟨q, h1, h2, h3⟩ := acl_framed p hp v pl h
    exact ⟨q, h1, h2, by rw [h3, hb]⟩
  · obtain ⟨q, h1, h2, h3⟩ := sco_framed p hp v pl h
    exact ⟨q, h1, h2, by rw [h3, hb]⟩
  · obtain ⟨q, h1, h2, h3⟩ := iso_framed p hp v pl h (hs rfl)
    exact ⟨q, h1, h2, by rw [h3, hb]⟩

/-- A packet with its type, values and payload. -/
structure Item where
  kind : H4.Kind
  packet : Packet
  vals : Vals packet.levels
  payload : List Nat

/-- It is a declared packet of its type with values that can be put in it. -/
def Item.Ok (i : Item) : Prop :=
  (∃ f, (i.kind, f) ∈ [(H4.Kind.command, Pdl.Hci.packetsCommand), (.event, Pdl.Hci.packetsEvent), (.acl, Pdl.Hci.packetsAcl),
    (.sco, Pdl.Hci.packetsSco), (.iso, Pdl.Hci.packetsIso)] ∧ i.packet ∈ f) ∧ i.packet.legal i.vals i.payload = true

/-- Its octets in the stream: the type (Core Vol 4 Part A 2), then the packet. -/
def Item.stream (i : Item) : List UInt8 := (match i.kind with
  | .command => 1
  | .acl => 2
  | .sco => 3
  | .event => 4
  | .iso => 5) :: (serialize i.packet i.vals i.payload).map UInt8.ofNat

/-- C84: any sequence of such packets, cut in any way, is read as these packets, with the same values and payloads. Missing: the
isochronous data packets of 4100 octets and more, see `C84_iso_violated`. -/
theorem C84_stream_partial (items : List Item) (hok : ∀ i ∈ items, i.Ok)
    (hs : ∀ i ∈ items, i.kind = .iso → (serialize i.packet i.vals i.payload).length < 4100) (recovery : Bool)
    (reads : List (List UInt8)) (hr : H4.Respects (H4.init recovery) reads) (hf : reads.flatten = items.flatMap Item.stream) :
    ∃ p ev, H4.feed (H4.init recovery) reads = .done true p ev ∧ ev.length = items.length
    ∧ ∀ (n : Nat) (i : Item), items[n]? = some i → ∃ b, ev[n]? = some (i.kind, b)
      ∧ parse i.packet (b.map UInt8.toNat) = some (i.vals, i.payload) := by
  have key : ∀ items : List Item, (∀ i ∈ items, i.Ok) →
      (∀ i ∈ items, i.kind = .iso → (serialize i.packet i.vals i.payload).length < 4100) →
      ∃ qs : List H4.Packet, (∀ q ∈ qs, q.WellFormed) ∧ H4.encodeAll qs = items.flatMap Item.stream
      ∧ qs.length = items.length ∧ ∀ (n : Nat) (i : Item), items[n]? = some i → ∃ q, qs[n]? = some q ∧ q.kind = i.kind
        ∧ q.bytes.map UInt8.toNat = serialize i.packet i.vals i.payload := by
    intro items
    induction items with
    | nil => intro _ _; exact ⟨[], by simp, rfl, rfl, by simp⟩
    | cons i items ih =>
      intro hok hs
      obtain ⟨⟨f, hk, hp⟩, hl⟩ := hok i (by simp)
      obtain ⟨q, h1, h2, h3⟩ := C84_framed_partial i.kind f hk i.packet hp i.vals i.payload hl (hs i (by simp))
      obtain ⟨qs, e1, e2, e3, e4⟩ := ih (fun j hj => hok j (by simp [hj])) (fun j hj => hs j (by simp [hj]))
      refine ⟨q :: qs, ?_, ?_, by simp [e3], ?_⟩
      · intro x hx
        rcases List.mem_cons.mp hx with rfl | hx
        · exact h1
        · exact e1 x hx
      · have hb : (serialize i.packet i.vals i.payload).map UInt8.ofNat = q.bytes := by
          rw [← h3, List.map_map]
          conv => rhs; rw [← List.map_id q.bytes]
          apply List.map_congr_left
          intro x _
          simp
        have ht : q.typeOctet = (match i.kind with | .command => 1 | .acl => 2 | .sco => 3 | .event => 4 | .iso => 5) := by
          rw [← h2]; cases q <;> rfl
        rw [List.flatMap_cons, ← e2]
        simp only [H4.encodeAll, List.map_cons, List.flatten_cons, H4.Packet.encode, Item.stream, hb]
        rw [ht]
      · intro n j hj
        cases n with
        | zero => simp only [List.getElem?_cons_zero, Option.some.injEq] at hj; subst hj; exact ⟨q, rfl, h2, h3⟩
        | succ n => simp only [List.getElem?_cons_succ] at hj ⊢; exact e4 n j hj
  obtain ⟨qs, e1, e2, e3, e4⟩ := key items hok hs
  obtain ⟨p, h1, -⟩ := H4.C01_packets_delivered recovery qs e1 reads hr (by rw [hf, e2])
  refine ⟨p, _, h1, by simp [e3], ?_⟩
  intro n i hi
  obtain ⟨q, g1, g2, g3⟩ := e4 n i hi
  refine ⟨q.bytes, by simp [g1, g2], ?_⟩
  obtain ⟨⟨f, hk, hp⟩, hl⟩ := hok i (List.mem_of_getElem? hi)
  have hd : i.packet ∈ Pdl.declared := by
    refine List.mem_flatten.mpr ⟨f, ?_, hp⟩
    simp only [List.mem_cons, Prod.mk.injEq, List.not_mem_nil, or_false] at hk
    rcases hk with ⟨-, rfl⟩ | ⟨-, rfl⟩ | ⟨-, rfl⟩ | ⟨-, rfl⟩ | ⟨-, rfl⟩ <;> simp [Pdl.families]
  rw [g3]
  exact Pdl.C80_read i.packet hd i.vals i.payload hl

/-- C84, violated: an isochronous data packet with a load of 4096 octets can be declared, but the parser reads only twelve of the
fourteen bits of its length, and takes it for a packet without a load. The load is read as the packets that follow. -/
theorem C84_iso_violated (load : List Nat) (hl : load.length = 4096) (ho : ∀ x ∈ load, x < 256) :
    ∃ (p : Packet) (v : Vals p.levels), p ∈ Pdl.Hci.packetsIso ∧ p.legal v load = true
    ∧ serialize p v load = [1, 0x20, 0, 0x10] ++ load
    ∧ ∃ q, H4.feed (H4.init true) [[5], [1, 0x20, 0, 0x10]] = .done true q [(.iso, [1, 0x20, 0, 0x10])] ∧ q.state = .type := by
  let v : Vals [⟨Pdl.Hci.bodyIso, []⟩] := ((1, 2, 0, ()), ())
  refine ⟨⟨"Iso", [⟨Pdl.Hci.bodyIso, []⟩]⟩, v, ?_, ?_, ?_, ?_⟩
  · simp [Pdl.Hci.packetsIso, Pdl.Hci.packetsIso0]
  · refine (Pdl.legal_iff _ _ _).mpr ⟨?_, ho, .inr rfl⟩
    rw [hl]
    decide +kernel
  · have hu := Pdl.unpack_length load
    have e : Pdl.encAll [⟨Pdl.Hci.bodyIso, []⟩] v (unpack load)
        = (bits 12 1 ++ bits 2 2 ++ bits 1 0 ++ bits 1 0 ++ bits 14 4096 ++ bits 2 0) ++ unpack load := by
      simp only [v, Pdl.encAll, Pdl.Hci.bodyIso, Pdl.enc, Pdl.lenOf, if_true, hu, hl, List.append_nil, List.append_assoc]
    simp only [serialize]
    rw [e, octets_append 4 _ _ (by decide +kernel), Pdl.octets_unpack load ho]
    congr 1
  · exact ⟨⟨.type, 0, 5, [1, 0x20, 0, 0x10], 0, true⟩, by decide +kernel, rfl⟩

/-! A command and its answer. -/
def demoItems : List Item :=
  [⟨.command, ⟨"WriteScanEnable", [⟨Pdl.Hci.bodyCommand, [(0, 3098)]⟩, ⟨Pdl.Hci.bodyWriteScanEnable, []⟩]⟩, ((3098, ()), (3, ()), ()), []⟩,
   ⟨.acl, ⟨"Acl", [⟨Pdl.Hci.bodyAcl, []⟩]⟩, ((5, 2, 0, ()), ()), [7, 8, 9]⟩]

example : demoItems.flatMap Item.stream = [1, 0x1a, 0x0c, 1, 3, 2, 5, 0x20, 3, 0, 7, 8, 9] := by decide +kernel

example : ∀ i ∈ demoItems, i.Ok := by
  intro i hi
  simp only [demoItems, List.mem_cons, List.not_mem_nil, or_false] at hi
  rcases hi with rfl | rfl
  · refine ⟨⟨Pdl.Hci.packetsCommand, by simp, ?_⟩, by rfl⟩
    simp only [Pdl.Hci.packetsCommand, List.mem_append]
    exact .inl (.inl (.inl (by simp [Pdl.Hci.packetsCommand0])))
  · exact ⟨⟨Pdl.Hci.packetsAcl, by simp, by simp [Pdl.Hci.packetsAcl, Pdl.Hci.packetsAcl0]⟩, by rfl⟩

end Verif.Port
