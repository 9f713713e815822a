import Verif.WireLink.EventsSpec
import Verif.WireLink.Lemmas
import Verif.WireLe.Lemmas
import Verif.Sub.Lemmas

/-!
# Lemmas for C131
-/
namespace Verif.WireLink

open Verif.Pdl Verif.Pdl.Hci
open Verif.Wire (le yes le_length octets_bits8 octets_16 octets_16e octets_12_4 octets_12_4e padTo_zero)
open Verif.WireBr (octet event ofEvent get bytes octets_8le octets_8lee enc_octet octets_bytes unpack_bytes le_0 le_1 get_le get_lee
  get_1 bytes_of octets_64e)
open Verif.WireLe (subevent ofSubevent subevent_octets)

theorem octets_9_7 (n : Nat) (r : List Bool) (h : n < 512) : octets (bits 9 n ++ (bits 7 0 ++ r)) = le 2 n ++ octets r := by
  rw [Wire.bits_join' 9 7 n 0 r h]
  simp only [Nat.reduceAdd, Nat.mul_zero, Nat.add_zero, octets_16]

theorem phyCode_of (p : Link.Phy) : phyCode p = ofPhy p := by cases p <;> rfl
theorem onCode_of (b : Bool) : onCode b = yes b := rfl
theorem ofPhy_mod (p : Link.Phy) : ofPhy p % 256 = ofPhy p := by cases p <;> rfl
theorem phyOf_of (p : Link.Phy) : phyOf (ofPhy p) = some p := by cases p <;> rfl
theorem yes_mod (b : Bool) : yes b % 256 = yes b := by cases b <;> rfl
theorem onOf_of (b : Bool) : onOf (yes b) = some b := by cases b <;> rfl

theorem statusOf_of (q : Sub.Status) (h : Known q) : statusOf? (ofReason q) = q := by
  cases q with
  | other n =>
    obtain ⟨_, h0, h1, h2, h3, h4⟩ := h
    simp [statusOf?, ofReason, h0, h1, h2, h3, h4]
  | _ => rfl

/-- The octets of the fields of an event. -/
macro "lt_enc" "[" t:Lean.Parser.Tactic.simpLemma,* "]" : tactic => `(tactic|
  simp [enc, lenOf, octets, octets_8le, octets_16, octets_8lee, octets_16e, octets_64e, le_0, le_1, phyCode_of, onCode_of, code_of,
    $t,*])

/-- Their number. -/
macro "lt_len" "[" t:Lean.Parser.Tactic.simpLemma,* "]" : tactic => `(tactic|
  simp [enc, lenOf, bits_length, le_length, unpack_bytes, $t,*])

theorem ltk_octets (h e : Nat) (x : List UInt8) (h1 : h < 4096) (h2 : x.length = 8) :
    subevent 0x05 bodyLeLongTermKeyRequest (h, x.map octet, e, ()) = ofSubevent 0x05 (le 2 h ++ x.map UInt8.toNat ++ le 2 e) := by
  have he : enc bodyLeLongTermKeyRequest (h, x.map octet, e, ()) [] =
      bits 12 h ++ (bits 4 0 ++ (unpack (x.map UInt8.toNat) ++ bits 16 e)) := by
    show bits 12 h ++ (bits 4 0 ++ (padTo 0 ((x.map octet).flatMap (fun x => enc (.uint 8 .done) x [])) ++ (bits 16 e ++ []))) = _
    rw [enc_octet, padTo_zero, List.append_nil]
  refine subevent_octets 0x05 _ _ _ (by decide) ?_ ?_ ?_
  · rw [he, octets_12_4 _ _ h1, Wire.octets_elems _ _ (WireBr.bytes_lt x), octets_16e, List.append_assoc]
  · rw [he]; simp [bits_length, unpack_bytes, le_length]; omega
  · simp [le_length]; omega

theorem hears_event (code : Nat) (ps : List Nat) (h : ps.length < 256) : hears (ofEvent code ps) = event? code ps := by
  simp [hears, ofEvent, h]

theorem hears_subevent (code : Nat) (ps : List Nat) (h : ps.length < 255) : hears (ofSubevent code ps) = subevent? code ps := by
  rw [ofSubevent, hears_event _ _ (by simp; omega)]
  simp [event?, get_1]

/-- A host reads the parameters. -/
macro "lt_get" "[" t:Lean.Parser.Tactic.simpLemma,* "]" : tactic => `(tactic|
  simp [subevent?, event?, List.append_assoc, get_1, get_le, get_lee, ofPhy_mod, phyOf_of, yes_mod, onOf_of, bytes_of, $t,*])

/-! ### Commands -/

theorem command_tellable (u : Unused) (d : Link.Dev) (c : Link.Cmd) (o : Link.Out) (h : Sendable u (.link c))
    (hr : Link.command d c = some o) : ∀ e ∈ o.ev, Tellable (.link e) := by
  cases c with
  | acl => exact h.elim
  | reply j k =>
    have hj : j < 4096 := h.1
    simp only [Link.command, Link.reply] at hr
    repeat' split at hr
    all_goals cases hr
    all_goals simp only [Link.tell]
    all_goals repeat' split
    all_goals simp [Tellable, hj]
  | _ =>
    simp only [Link.command, Link.setDefaultPhy, Link.setPhy, Link.enable, Link.negative, Link.ask] at hr
    repeat' split at hr
    all_goals cases hr
    all_goals simp

theorem sub_tellable (u : Unused) (j : Nat) (e : Sub.End) (c : Sub.Cmd) (st : Sub.Status) (e' : Sub.End) (ps : List Sub.Pdu)
    (es : List Sub.Ev) (h : Sendable u (.sub j c)) (hr : Sub.command e c = .ok st e' ps es) : ∀ x ∈ es, Tellable (.sub j x) := by
  cases c with
  | subrateRequest x y l c t =>
    have hj : j < 4096 := h.1
    simp only [Sub.command, Sub.subrateRequest] at hr
    rcases Sub.ite_split hr with ⟨_, hr⟩ | ⟨k0, hr⟩; · cases hr <;> simp
    rcases Sub.ite_split hr with ⟨_, hr⟩ | ⟨k1, hr⟩; · cases hr <;> simp
    rcases Sub.ite_split hr with ⟨_, hr⟩ | ⟨k2, hr⟩; · cases hr <;> simp
    rcases Sub.ite_split hr with ⟨_, hr⟩ | ⟨k3, hr⟩; · cases hr <;> simp
    rcases Sub.ite_split hr with ⟨_, hr⟩ | ⟨k4, hr⟩; · cases hr <;> simp
    rcases Sub.ite_split hr with ⟨_, hr⟩ | ⟨k5, hr⟩; · cases hr <;> simp
    rcases Sub.ite_split hr with ⟨_, hr⟩ | ⟨k6, hr⟩; · cases hr <;> simp
    rcases Sub.ite_split hr with ⟨_, hr⟩ | ⟨k7, hr⟩; · cases hr <;> simp
    rcases Sub.ite_split hr with ⟨_, hr⟩ | ⟨k8, hr⟩; · cases hr <;> simp
    rcases Sub.ite_split hr with ⟨_, hr⟩ | ⟨k9, hr⟩; · cases hr <;> simp
    rcases Sub.ite_split hr with ⟨_, hr⟩ | ⟨k10, hr⟩; · cases hr <;> simp
    cases ho : e.role <;> simp only [ho] at hr <;> cases hr
    · simp only [List.mem_singleton, forall_eq]
      exact ⟨trivial, hj, by omega, by omega, by omega, by omega⟩
    · simp
  | connectionUpdate x y l t =>
    obtain ⟨h1, h2, h3, h4, h5, _⟩ := h
    simp only [Sub.command, Sub.connectionUpdate] at hr
    split at hr
    all_goals cases hr
    all_goals simp [Tellable, Known, h1, h3, h4, h5]
  | paramReply x y l t m n =>
    obtain ⟨h1, h2, h3, h4, h5, _⟩ := h
    simp only [Sub.command, Sub.paramReply] at hr
    repeat' split at hr
    all_goals cases hr
    all_goals simp [Tellable, Known, h1, h2, h4, h5]
  | paramRefuse q =>
    cases hr
    simp

theorem perform_tellable (u : Unused) (s : Ctl) (c : Call) (d : Did) (h : Sendable u c) (hr : perform s c = some d) :
    ∀ e ∈ tells d, Tellable e := by
  intro e he
  simp only [tells, List.mem_append, List.mem_map] at he
  cases c with
  | link c =>
    obtain ⟨o, ho, rfl⟩ := Option.map_eq_some_iff.1 hr
    rcases he with ⟨x, hx, rfl⟩ | ⟨x, hx, rfl⟩
    · exact command_tellable u s.dev c o h ho x hx
    · cases hx
  | sub j c =>
    simp only [perform] at hr
    split at hr
    · cases hr
      rcases he with ⟨x, hx, rfl⟩ | ⟨x, hx, rfl⟩ <;> cases hx
    · split at hr
      · rename_i hc
        cases hr
        rcases he with ⟨x, hx, rfl⟩ | ⟨x, hx, rfl⟩
        · cases hx
        · obtain ⟨y, hy, rfl⟩ := List.mem_map.1 hx
          exact sub_tellable u j _ c _ _ _ _ h hc y hy
      · cases hr
  | subrate a b l c t =>
    cases hr
    rcases he with ⟨x, hx, rfl⟩ | ⟨x, hx, rfl⟩ <;> cases hx

end Verif.WireLink
