import Verif.Bye.Model
import Verif.Br.Fate
import Verif.Br.ViewLemmas
import Verif.Ll.PropsConn
/-! # What the packets of a device that leaves do to the others -/
namespace Verif.Bye
open Verif.Br
open Verif.Conn (Table find erase firstWith keys)

/-- The connections with everybody else. -/
def others (t : Ctl) (x : Nat) : Table Syn := t.sco.filter (fun e => e.2.addr ≠ x)

theorem filter_update_ne {t : Table Acl} {h x : Nat} {c c0 : Acl} (hn : (keys t).Nodup) (hm : (h, c0) ∈ t) (h0 : c0.addr = x) (hc : c.addr = x) :
    (update t h c).filter (fun e => e.2.addr ≠ x) = t.filter (fun e => e.2.addr ≠ x) := by
  unfold update
  induction t with
  | nil => rfl
  | cons e t ih =>
    obtain ⟨k, d⟩ := e
    have hn' : (keys t).Nodup := (List.nodup_cons.mp hn).2
    have hk : k ∉ keys t := (List.nodup_cons.mp hn).1
    rcases List.mem_cons.mp hm with hm | hm
    · cases hm
      have e1 : t.map (fun e => if e.1 = h then (h, c) else e) = t := by
        rw [List.map_congr_left (g := id)]
        · simp
        · intro e he
          have : e.1 ≠ h := fun hh => hk (hh ▸ List.mem_map_of_mem he)
          simp [this]
      simp only [List.map_cons, if_true, e1]
      rw [List.filter_cons_of_neg (by simp [hc]), List.filter_cons_of_neg (by simp [h0])]
    · have hkh : k ≠ h := fun hh => hk (hh ▸ List.mem_map_of_mem (f := (·.1)) hm)
      simp only [List.map_cons, hkh, if_false, List.filter_cons, ih hn' hm]

theorem touch_filter {t : Ctl} (hi : Inv t) (now x : Nat) : (touch t now x).acl.filter (fun e => e.2.addr ≠ x) = t.acl.filter (fun e => e.2.addr ≠ x) := by
  unfold touch
  cases h : aclOf t x with
  | none => rfl
  | some e =>
    obtain ⟨k, c⟩ := e
    obtain ⟨h1, h2⟩ := aclOf_some h
    exact filter_update_ne hi.sound.nodup h1 h2 h2

theorem erase_filter_ne {t : Table Syn} {k x : Nat} {c : Syn} (hn : (keys t).Nodup) (hm : (k, c) ∈ t) (hc : c.addr = x) :
    (erase t k).filter (fun e => e.2.addr ≠ x) = t.filter (fun e => e.2.addr ≠ x) := by
  unfold erase
  rw [List.filter_filter]
  apply List.filter_congr
  intro e he
  by_cases hk : e.1 = k
  · obtain ⟨k', d⟩ := e
    simp only at hk
    subst hk
    have := unique hn he hm
    subst this
    simp [hc]
  · simp [hk]

theorem erase_filter_eq {t : Table Syn} {k x : Nat} {c : Syn} (hn : (keys t).Nodup) (hf : scoOf t x = some (k, c)) :
    t.filter (fun e => e.2.addr = x) = (k, c) :: (erase t k).filter (fun e => e.2.addr = x) := by
  induction t with
  | nil => cases hf
  | cons e t ih =>
    obtain ⟨j, d⟩ := e
    have hn' : (keys t).Nodup := (List.nodup_cons.mp hn).2
    have hj : j ∉ keys t := (List.nodup_cons.mp hn).1
    by_cases hd : d.addr = x
    · have : (j, d) = (k, c) := by simpa [scoOf, firstWith, hd] using hf
      cases this
      have e1 : erase ((k, c) :: t) k = t := by
        unfold erase
        rw [List.filter_cons_of_neg (by simp)]
        rw [List.filter_eq_self]
        intro e he
        have : e.1 ≠ k := fun hh => hj (hh ▸ List.mem_map_of_mem he)
        simp [this]
      rw [e1, List.filter_cons_of_pos (by simp [hd])]
    · have hf' : scoOf t x = some (k, c) := by simpa [scoOf, firstWith, hd] using hf
      have hk : j ≠ k := fun hh => hj (hh ▸ List.mem_map_of_mem (f := (·.1)) (scoOf_some hf').1)
      rw [List.filter_cons_of_neg (by simp [hd]), ih hn' hf']
      unfold erase
      rw [List.filter_cons_of_pos (by simp [hk]), List.filter_cons_of_neg (by simp [hd])]

theorem erase_acl {t : Ctl} (hi : Inv t) {h : Nat} {c : Acl} (hm : (h, c) ∈ t.acl) : erase t.acl h = t.acl.filter (fun e => e.2.addr ≠ c.addr) := by
  unfold erase
  apply List.filter_congr
  intro e he
  by_cases hk : e.1 = h
  · obtain ⟨k, d⟩ := e
    simp only at hk
    subst hk
    have := unique hi.sound.nodup he hm
    subst this
    simp
  · have : e.2.addr ≠ c.addr := by
      intro ha
      have hn := hi.nodup
      unfold peers at hn
      have := List.inj_on_of_nodup_map hn he hm ha
      exact hk (by rw [this])
    simp [hk, this]

/-- What the packets that end the synchronous connections do. -/
structure Hung (t t' : Ctl) (x n r : Nat) (l : List Seen) : Prop where
  inv : Inv t'
  rest : t' = { t with acl := t'.acl, sco := t'.sco }
  peers : peers t' = Br.peers t
  acl : t'.acl.filter (fun e => e.2.addr ≠ x) = t.acl.filter (fun e => e.2.addr ≠ x)
  keep : t'.sco.filter (fun e => e.2.addr ≠ x) = t.sco.filter (fun e => e.2.addr ≠ x)
  drop : t'.sco.filter (fun e => e.2.addr = x) = (t.sco.filter (fun e => e.2.addr = x)).drop n
  handles : t'.acl.map (fun e => (e.1, e.2.addr)) = t.acl.map (fun e => (e.1, e.2.addr))
  ev : l.flatMap (·.ev) = if t.mask.testBit 4 then ((t.sco.filter (fun e => e.2.addr = x)).take n).map (fun e => .disconnComplete e.1 r) else []
  out : l.flatMap (·.out) = []

theorem touch_handles {t : Ctl} (hi : Inv t) (now x : Nat) : (touch t now x).acl.map (fun e => (e.1, e.2.addr)) = t.acl.map (fun e => (e.1, e.2.addr)) := by
  unfold touch
  cases h : aclOf t x with
  | none => rfl
  | some e =>
    obtain ⟨k, c⟩ := e
    obtain ⟨h1, h2⟩ := aclOf_some h
    simp only [update, List.map_map]
    apply List.map_congr_left
    intro e he
    by_cases hk : e.1 = k
    · obtain ⟨k', d⟩ := e
      simp only at hk
      subst hk
      have := unique hi.sound.nodup he h1
      subst this
      simp
    · simp [hk]

theorem scoDiscs {x r : Nat} : ∀ (arr : List (Nat × Nat)) (t : Ctl), Inv t →
    ∃ t' l, run t (arr.map (fun e => (e.1, .packet x t.addr e.2 (.scoDisc r)))) = some (t', l) ∧ Hung t t' x arr.length r l := by
  intro arr
  induction arr with
  | nil =>
    intro t hi
    exact ⟨t, [], rfl, hi, rfl, rfl, rfl, rfl, by simp, rfl, by simp, rfl⟩
  | cons e arr ih =>
    intro t hi
    obtain ⟨now, rssi⟩ := e
    obtain ⟨hi1, hp1⟩ := touch_inv hi now x
    have he := touch_eq t now x
    have hsc : (touch t now x).sco = t.sco := by rw [he]
    have hma : (touch t now x).mask = t.mask := by rw [he]
    have had : (touch t now x).addr = t.addr := by rw [he]
    cases hf : scoOf t.sco x with
    | none =>
      have hs : step t now (.packet x t.addr rssi (.scoDisc r)) = .ok 0 (touch t now x) [] [] := by
        simp [step, incoming, dispatch, onScoDisc, hsc, hf]
      obtain ⟨t', l, h1, h2⟩ := ih _ hi1
      rw [had] at h1
      have hz : t.sco.filter (fun e => e.2.addr = x) = [] := by
        have := (syncs_zero (s := t) (a := x)).mpr hf
        exact List.length_eq_zero_iff.mp this
      refine ⟨t', _, (by simp only [List.map_cons, run, hs, h1, Option.map_some]; rfl), h2.inv, ?_, h2.peers.trans hp1, h2.acl.trans (touch_filter hi now x),
        by rw [h2.keep, hsc], by rw [h2.drop, hsc, hz]; simp, h2.handles.trans (touch_handles hi now x), ?_, ?_⟩
      · have := h2.rest
        rw [he] at this
        exact this
      · rw [List.flatMap_cons, h2.ev, hma, hsc, hz]
        simp
      · rw [List.flatMap_cons, h2.out]
        rfl
    | some e =>
      obtain ⟨k, c⟩ := e
      obtain ⟨g1, g2⟩ := scoOf_some hf
      have hs : step t now (.packet x t.addr rssi (.scoDisc r)) = .ok 0 { touch t now x with sco := erase t.sco k } [] (if t.mask.testBit 4 then [.disconnComplete k r] else []) := by
        simp [step, incoming, dispatch, onScoDisc, hsc, hf, tell, unmasked, hma]
      have hi2 : Inv { touch t now x with sco := erase t.sco k } := by
        have := hi1.eraseSco k
        rwa [hsc] at this
      obtain ⟨t', l, h1, h2⟩ := ih _ hi2
      have had2 : ({ touch t now x with sco := erase t.sco k } : Ctl).addr = t.addr := had
      rw [had2] at h1
      have hz := erase_filter_eq hi.ssound.nodup hf
      refine ⟨t', _, (by simp only [List.map_cons, run, hs, h1, Option.map_some]; rfl), h2.inv, ?_, h2.peers.trans hp1, h2.acl.trans (touch_filter hi now x),
        by rw [h2.keep]; exact erase_filter_ne hi.ssound.nodup g1 g2, by rw [h2.drop, hz]; rfl, h2.handles.trans (touch_handles hi now x), ?_, ?_⟩
      · have := h2.rest
        rw [he] at this
        exact this
      · rw [List.flatMap_cons, h2.ev, hz]
        simp only [hma]
        split <;> simp
      · rw [List.flatMap_cons, h2.out]
        rfl

theorem run_append (t : Ctl) (as bs : List (Nat × Act)) : run t (as ++ bs) =
    (run t as).bind (fun x => (run x.1 bs).map (fun y => (y.1, x.2 ++ y.2))) := by
  induction as generalizing t with
  | nil => simp [run]
  | cons a as ih =>
    obtain ⟨now, a⟩ := a
    simp only [List.cons_append, run]
    cases step t now a with
    | ok st s' out ev =>
      simp only [ih]
      cases run s' as with
      | none => rfl
      | some y =>
        simp only [Option.bind_some, Option.map_some]
        cases run y.1 bs <;> rfl
    | _ => rfl

/-- The end of the ACL connection with `x`, when no synchronous connection is left. -/
theorem lastOne {t : Ctl} (hi : Inv t) {x h now rssi r : Nat} {c : Acl} (hm : (h, c) ∈ t.acl) (hc : c.addr = x) :
    (syncs t x = 0 → step t now (.packet x t.addr rssi (.disconnect r)) =
      .ok 0 { t with acl := t.acl.filter (fun e => e.2.addr ≠ x), lm := t.lm.erase x } [] (if t.mask.testBit 4 then [.disconnComplete h r] else [])) ∧
    (1 ≤ syncs t x → step t now (.packet x t.addr rssi (.disconnect r)) = .abort) := by
  obtain ⟨hi1, hp1⟩ := touch_inv hi now x
  have he := touch_eq t now x
  have hsc : (touch t now x).sco = t.sco := by rw [he]
  have hma : (touch t now x).mask = t.mask := by rw [he]
  have hlm : (touch t now x).lm = t.lm := by rw [he]
  have hin : x ∈ peers t := List.mem_map.2 ⟨(h, c), hm, hc⟩
  have h0 : x ≠ 0 := fun h0 => hi.zero (h0 ▸ hin)
  have hxl : x ∈ t.lm := hi.lm.mem_iff.2 hin
  obtain ⟨k, c', hf⟩ : ∃ k c', aclOf (touch t now x) x = some (k, c') := by
    have := aclOf_isSome.mpr (hp1 ▸ hin)
    obtain ⟨e, he⟩ := Option.isSome_iff_exists.mp this
    exact ⟨e.1, e.2, he⟩
  obtain ⟨f1, f2⟩ := aclOf_some hf
  have hk : k = h := by
    have m1 : (k, x) ∈ (touch t now x).acl.map (fun e => (e.1, e.2.addr)) := List.mem_map.mpr ⟨_, f1, by simp [f2]⟩
    rw [touch_handles hi] at m1
    obtain ⟨e, e1, e2⟩ := List.mem_map.mp m1
    simp only [Prod.mk.injEq] at e2
    have hn := hi.nodup
    unfold peers at hn
    have := List.inj_on_of_nodup_map hn e1 hm (e2.2.trans hc.symm)
    rw [← e2.1, this]
  subst hk
  constructor
  · intro hz
    have hsz := syncs_zero.mp hz
    have e1 : erase (touch t now x).acl k = t.acl.filter (fun e => e.2.addr ≠ x) := by
      rw [erase_acl hi1 f1, f2, touch_filter hi]
    simp only [step, incoming, dispatch, onDisconnect, hf, endAcl, hsc, hsz, Option.isSome_none, Bool.false_eq_true, if_false, removeLink, h0, hlm, hxl,
      if_true, Option.map_some, e1, tell, unmasked, hma, ne_eq, and_false, not_true_eq_false]
    rw [he]
  · intro hz
    have hsz := syncs_pos.mp hz
    simp only [step, incoming, dispatch, onDisconnect, hf, endAcl, hsc, hsz, if_true, ne_eq, and_false, not_true_eq_false, if_false]

end Verif.Bye
