import Verif.Ll.SimLemmas
/-!
# What the handlers of advertising packets leave alone
-/

namespace Verif.Ll
open Verif.Le

theorem resolveUpdate_frame (ah : Hash) (s : Le.State) (a : AddressWithType) :
    ∃ r, resolveUpdate ah s a = { s with resolvingList := r } := by
  unfold resolveUpdate
  split
  · exact ⟨_, rfl⟩
  · exact ⟨s.resolvingList, rfl⟩

theorem remember_frame (s : State) (p : Packet) : ∃ h, remember s p = { s with history := h } := by
  unfold remember
  split
  · exact ⟨s.history, rfl⟩
  · exact ⟨_, rfl⟩

/-- A scan request changes the pending requests and addresses, and sends at most
one packet. -/
theorem scanRequest_frame {cfg : Config} {rnd : Irk → Address} {s : State} {adv r : AddressWithType}
    {sc fr : Bool} {req : ScanRequest} {x : State × List Out}
    (h : scanRequest cfg rnd s adv r sc fr req = .ok x) :
    (∃ l q, x.1 = { s with le := { s.le with resolvingList := l }, pending := q }) ∧
    (x.2 = [] ∨ ∃ own, x.2 = [.send (.scan own adv)]) := by
  unfold scanRequest at h
  split at h
  · cases h; exact ⟨⟨_, _, rfl⟩, .inl rfl⟩
  split at h
  · cases h; exact ⟨⟨_, _, rfl⟩, .inl rfl⟩
  split at h
  · cases h; exact ⟨⟨_, _, rfl⟩, .inl rfl⟩
  split at h
  · cases h; exact ⟨⟨_, _, rfl⟩, .inl rfl⟩
  split at h
  · cases h
  · cases h; exact ⟨⟨_, _, rfl⟩, .inr ⟨_, rfl⟩⟩

/-- When a scan request is sent. -/
theorem scanRequest_cases {cfg : Config} {rnd : Irk → Address} {s : State} {adv r : AddressWithType}
    {sc fr : Bool} {req : ScanRequest} {x : State × List Out}
    (h : scanRequest cfg rnd s adv r sc fr req = .ok x) :
    (x = (s, []) ∧ ¬ (sc = true ∧ activeScanning s.le = true ∧ mapFind s.pending adv = none ∧ fr = true)) ∨
    (sc = true ∧ activeScanning s.le = true ∧ mapFind s.pending adv = none ∧ fr = true ∧
      ∃ own l, ownAddress cfg s.le s.le.scanner.ownAddressType
          (generateRpa rnd r .loc s.le.resolvingList).2 = some own ∧
        x = ({ s with le := { s.le with resolvingList := l }, pending := mapSet s.pending adv req },
          [.send (.scan own adv)])) := by
  unfold scanRequest at h
  split at h
  · rename_i h1; cases h; exact .inl ⟨rfl, by simp [h1]⟩
  rename_i h1
  split at h
  · rename_i h2; cases h; exact .inl ⟨rfl, by simp [h2]⟩
  rename_i h2
  split at h
  · rename_i h3
    cases h
    refine .inl ⟨rfl, ?_⟩
    rintro ⟨-, -, h4, -⟩
    rw [h4] at h3
    cases h3
  rename_i h3
  split at h
  · rename_i h4; cases h; exact .inl ⟨rfl, by simp [h4]⟩
  rename_i h4
  split at h
  · cases h
  · rename_i own ho
    cases h
    exact .inr ⟨by simpa using h1, by simpa using h2, by simpa using h3, by simpa using h4, own,
      _, ho, rfl⟩

/-- The scanner changes the history, the pending requests and addresses. -/
theorem scanLegacy_frame {ah : Hash} {cfg : Config} {rnd : Irk → Address} {now : Nat} {s : State}
    {p : LegacyPdu} {x : State × List Out} (h : scanLegacy ah cfg rnd now s p = .ok x) :
    ∃ l hi q, x.1 = { s with le := { s.le with resolvingList := l }, history := hi, pending := q } := by
  obtain ⟨r, hr⟩ := resolveUpdate_frame ah s.le p.adv
  simp only [scanLegacy] at h
  split at h
  · cases h; exact ⟨_, _, _, rfl⟩
  split at h
  · cases h; rw [hr]; exact ⟨_, _, _, rfl⟩
  obtain ⟨y, hy, hx⟩ := Res.bind_eq_ok h
  cases hx
  obtain ⟨⟨l, q, hf⟩, -⟩ := scanRequest_frame hy
  obtain ⟨hi, hh⟩ := remember_frame { s with le := resolveUpdate ah s.le p.adv } (.legacyAdv p)
  rw [hf, hh, hr]
  exact ⟨_, _, _, rfl⟩

theorem scanExtended_frame {ah : Hash} {cfg : Config} {rnd : Irk → Address} {now : Nat} {s : State}
    {p : ExtPdu} {x : State × List Out} (h : scanExtended ah cfg rnd now s p = .ok x) :
    ∃ l hi q, x.1 = { s with le := { s.le with resolvingList := l }, history := hi, pending := q } := by
  obtain ⟨r, hr⟩ := resolveUpdate_frame ah s.le p.adv
  simp only [scanExtended] at h
  split at h
  · cases h; exact ⟨_, _, _, rfl⟩
  split at h
  · cases h; exact ⟨_, _, _, rfl⟩
  split at h
  · cases h; exact ⟨_, _, _, rfl⟩
  split at h
  · cases h; rw [hr]; exact ⟨_, _, _, rfl⟩
  obtain ⟨y, hy, hx⟩ := Res.bind_eq_ok h
  cases hx
  obtain ⟨⟨l, q, hf⟩, -⟩ := scanRequest_frame hy
  obtain ⟨hi, hh⟩ := remember_frame { s with le := resolveUpdate ah s.le p.adv } (.extAdv p)
  rw [hf, hh, hr]
  exact ⟨_, _, _, rfl⟩

/-- The initiator either only changes addresses, or sends one connect request. -/
theorem initiate_frame {ah : Hash} {cfg : Config} {rnd : Irk → Address} {s : State}
    {adv target : AddressWithType} {c d : Bool} {x : State × List Out}
    (h : initiate ah cfg rnd s adv target c d = .ok x) :
    (∃ l, x = ({ s with le := { s.le with resolvingList := l } }, [])) ∨
    ∃ l own, c = true ∧ s.le.initiator.pendingConnectRequest = none ∧
      x = ({ s with le := { s.le with resolvingList := l, initiator := { s.le.initiator with pendingConnectRequest := some adv, initiatingAddress := own.address } } },
        [.send (.connect own adv (requestParams s.le))]) := by
  obtain ⟨r, hr⟩ := resolveUpdate_frame ah s.le adv
  simp only [initiate] at h
  split at h
  · cases h; exact .inl ⟨_, rfl⟩
  rename_i hc
  split at h
  · cases h; exact .inl ⟨_, rfl⟩
  rename_i hp
  split at h
  · cases h; rw [hr]; exact .inl ⟨_, rfl⟩
  split at h
  · cases h
  · rename_i own _
    cases h
    refine .inr ⟨(generateRpa rnd (resolved ah s.le adv) .loc r).1, own, by simpa using hc, by simpa using hp, ?_⟩
    rw [hr]
    rfl

/-- The effect of an advertising PDU: the scanner first, then the initiator. -/
theorem receive_legacyAdv {ah : Hash} {cfg : Config} {rnd : Irk → Address} {now : Nat} {s : State}
    {p : LegacyPdu} {x : State × List Out} (h : receive ah cfg rnd now s (.legacyAdv p) = .ok x) :
    ∃ y z, scanLegacy ah cfg rnd now s p = .ok y ∧ connectLegacy ah cfg rnd y.1 p = .ok z ∧
      x = (z.1, y.2 ++ z.2) := by
  simp only [receive] at h
  obtain ⟨y, hy, h⟩ := Res.bind_eq_ok h
  obtain ⟨z, hz, h⟩ := Res.bind_eq_ok h
  cases h
  exact ⟨y, z, hy, hz, rfl⟩

theorem receive_extAdv {ah : Hash} {cfg : Config} {rnd : Irk → Address} {now : Nat} {s : State}
    {p : ExtPdu} {x : State × List Out} (h : receive ah cfg rnd now s (.extAdv p) = .ok x) :
    ∃ y z, scanExtended ah cfg rnd now s p = .ok y ∧ connectExtended ah cfg rnd y.1 p = .ok z ∧
      x = (z.1, y.2 ++ z.2) := by
  simp only [receive] at h
  obtain ⟨y, hy, h⟩ := Res.bind_eq_ok h
  obtain ⟨z, hz, h⟩ := Res.bind_eq_ok h
  cases h
  exact ⟨y, z, hy, hz, rfl⟩

theorem connectLegacy_frame {ah : Hash} {cfg : Config} {rnd : Irk → Address} {s : State}
    {p : LegacyPdu} {x : State × List Out} (h : connectLegacy ah cfg rnd s p = .ok x) :
    (∃ l, x = ({ s with le := { s.le with resolvingList := l } }, [])) ∨
    ∃ l own, p.type.connectable = true ∧ s.le.initiator.enable = true ∧
      s.le.initiator.pendingConnectRequest = none ∧
      x = ({ s with le := { s.le with resolvingList := l, initiator := { s.le.initiator with pendingConnectRequest := some p.adv, initiatingAddress := own.address } } },
        [.send (.connect own p.adv (requestParams s.le))]) := by
  simp only [connectLegacy] at h
  split at h
  · cases h; exact .inl ⟨_, rfl⟩
  · rename_i he
    rcases initiate_frame h with h | ⟨l, own, hc, hp, h⟩
    · exact .inl h
    · exact .inr ⟨l, own, hc, by simpa using he, hp, h⟩

theorem connectExtended_frame {ah : Hash} {cfg : Config} {rnd : Irk → Address} {s : State}
    {p : ExtPdu} {x : State × List Out} (h : connectExtended ah cfg rnd s p = .ok x) :
    (∃ l, x = ({ s with le := { s.le with resolvingList := l } }, [])) ∨
    ∃ l own, p.connectable = true ∧ s.le.initiator.enable = true ∧
      s.le.initiator.pendingConnectRequest = none ∧
      x = ({ s with le := { s.le with resolvingList := l, initiator := { s.le.initiator with pendingConnectRequest := some p.adv, initiatingAddress := own.address } } },
        [.send (.connect own p.adv (requestParams s.le))]) := by
  simp only [connectExtended] at h
  split at h
  · cases h; exact .inl ⟨_, rfl⟩
  · rename_i he
    split at h
    · cases h; exact .inl ⟨_, rfl⟩
    rcases initiate_frame h with h | ⟨l, own, hc, hp, h⟩
    · exact .inl h
    · exact .inr ⟨l, own, hc, by simpa using he, hp, h⟩

end Verif.Ll
