import Verif.Bye.Spec
import Verif.Ll.PropsConn
/-! # What the LE packets of a device that leaves do to the others -/
namespace Verif.Bye
open Verif.Ll Verif.Le
open Verif.Conn (Table find erase firstWith keys)

theorem erase_first {C : Type} {t : Table C} {P : C → Bool} {k : Nat} {c : C} (hn : (keys t).Nodup) (hf : firstWith P t = some (k, c)) :
    t.filter (fun e => P e.2) = (k, c) :: (erase t k).filter (fun e => P e.2) := by
  induction t with
  | nil => cases hf
  | cons e t ih =>
    obtain ⟨j, d⟩ := e
    have hn' : (keys t).Nodup := (List.nodup_cons.mp hn).2
    have hj : j ∉ keys t := (List.nodup_cons.mp hn).1
    by_cases hd : P d = true
    · have : (j, d) = (k, c) := by simpa [firstWith, hd] using hf
      cases this
      have e1 : erase ((k, c) :: t) k = t := by
        unfold erase
        rw [List.filter_cons_of_neg (by simp)]
        rw [List.filter_eq_self]
        intro e he
        have : e.1 ≠ k := fun hh => hj (hh ▸ List.mem_map_of_mem (f := (·.1)) he)
        simp [this]
      rw [e1, List.filter_cons_of_pos (by simp [hd])]
    · have hf' : firstWith P t = some (k, c) := by simpa [firstWith, hd] using hf
      have hk : j ≠ k := fun hh => hj (hh ▸ List.mem_map_of_mem (f := (·.1)) (Conn.firstWith_some _ _ _ _ hf').1)
      rw [List.filter_cons_of_neg (by simp [hd]), ih hn' hf']
      unfold erase
      rw [List.filter_cons_of_pos (by simp [hk]), List.filter_cons_of_neg (by simp [hd])]

theorem erase_other {C : Type} {t : Table C} {Q : C → Bool} {k : Nat} {c : C} (hn : (keys t).Nodup) (hm : (k, c) ∈ t) (hq : Q c = false) :
    (erase t k).filter (fun e => Q e.2) = t.filter (fun e => Q e.2) := by
  unfold erase
  rw [List.filter_filter]
  apply List.filter_congr
  intro e he
  by_cases hk : e.1 = k
  · have : e = (k, c) := List.inj_on_of_nodup_map hn he hm hk
    subst this
    simp [hq]
  · simp [hk]

theorem erase_perm {C : Type} {t : Table C} {k : Nat} {c : C} (hn : (keys t).Nodup) (hm : (k, c) ∈ t) : ((k, c) :: erase t k).Perm t := by
  induction t with
  | nil => cases hm
  | cons e t ih =>
    have hn' : (keys t).Nodup := (List.nodup_cons.mp hn).2
    have hj : e.1 ∉ keys t := (List.nodup_cons.mp hn).1
    rcases List.mem_cons.mp hm with hm | hm
    · subst hm
      have e1 : erase ((k, c) :: t) k = t := by
        unfold erase
        rw [List.filter_cons_of_neg (by simp)]
        rw [List.filter_eq_self]
        intro e he
        have : e.1 ≠ k := fun hh => hj (hh ▸ List.mem_map_of_mem (f := (·.1)) he)
        simp [this]
      rw [e1]
    · have hk : e.1 ≠ k := fun hh => hj (hh ▸ List.mem_map_of_mem (f := (·.1)) hm)
      have e1 : erase (e :: t) k = e :: erase t k := by
        unfold erase
        rw [List.filter_cons_of_pos (by simp [hk])]
      rw [e1]
      exact (List.Perm.swap _ _ _).trans ((ih hn' hm).cons e)

/-- What the packets do. -/
theorem leDiscs {ah : Hash} {cfg : Config} {r : Nat} : ∀ (arr : List ((Irk → Address) × Nat × Address × Address)) (t : Ll.State),
    Ll.Reachable ah cfg t →
    ∃ (t' : Ll.State) (obs : List Ll.Obs), Ll.run ah cfg (arr.map (fun e => .receive e.1 e.2.1 (.link e.2.2.1 e.2.2.2 (.disconnect r)))) t = .ok (t', obs) ∧
      t' = { t with conns := t'.conns, links := t'.links } ∧ Ll.Reachable ah cfg t' ∧
      (∀ peer own, between t' peer own = (between t peer own).drop (arr.countP (fun e => e.2.2.1 = peer && e.2.2.2 = own))) ∧
      (obs.flatMap (·.out) ++ t'.conns.map (fun e => Ll.Out.disconnected e.1 r)).Perm (t.conns.map (fun e => Ll.Out.disconnected e.1 r)) := by
  intro arr
  induction arr with
  | nil =>
    intro t hi
    exact ⟨t, [], rfl, rfl, hi, fun _ _ => by simp, by simp⟩
  | cons e arr ih =>
    intro t hi
    obtain ⟨rnd, now, a, b⟩ := e
    have hn := (connsOk_reachable hi).sound.nodup
    cases hf : Conn.firstWith (fun c : LeConn => c.address.address = a && c.own.address = b) t.conns with
    | none =>
      have hs : Ll.step ah cfg t (.receive rnd now (.link a b (.disconnect r))) = .ok (t, ⟨none, []⟩) := by
        simp only [Ll.step, receive, incomingLink, hf, Res.bind_ok]
      obtain ⟨t', obs, h1, h2, h3, h4, h5⟩ := ih t hi
      refine ⟨t', ⟨none, []⟩ :: obs, by simp only [List.map_cons, Ll.run, hs, h1, Res.bind_ok], h2, h3, ?_, by simpa using h5⟩
      intro peer own
      rw [h4, List.countP_cons]
      by_cases hpo : (decide (a = peer) && decide (b = own)) = true
      · simp only [Bool.and_eq_true, decide_eq_true_eq] at hpo
        obtain ⟨rfl, rfl⟩ := hpo
        have : between t a b = [] := by
          unfold between
          rw [List.filter_eq_nil_iff]
          intro e he
          rw [Conn.firstWith_none] at hf
          rw [hf e.1 e.2 he]
          simp
        rw [this]
        simp
      · simp only [hpo]
        simp
    | some e =>
      obtain ⟨k, c⟩ := e
      obtain ⟨g1, g2⟩ := Conn.firstWith_some _ _ _ _ hf
      have hl : t.links.contains k = true := by
        simp only [List.contains_iff_mem]
        exact ((connsOk_reachable hi).links k).mpr (List.mem_map.mpr ⟨_, g1, rfl⟩)
      have hs : Ll.step ah cfg t (.receive rnd now (.link a b (.disconnect r))) =
          .ok ({ t with conns := erase t.conns k, links := t.links.filter (· ≠ k) }, ⟨none, [.disconnected k r]⟩) := by
        simp only [Ll.step, receive, incomingLink, hf, removeConnection, if_pos hl, Res.bind_ok]
      obtain ⟨t', obs, h1, h2, h3, h4, h5⟩ := ih _ (hi.step hs)
      refine ⟨t', ⟨none, [.disconnected k r]⟩ :: obs, by simp only [List.map_cons, Ll.run, hs, h1, Res.bind_ok], h2, h3, ?_, ?_⟩
      · intro peer own
        rw [h4, List.countP_cons]
        by_cases hpo : (decide (a = peer) && decide (b = own)) = true
        · simp only [hpo, if_true]
          simp only [Bool.and_eq_true, decide_eq_true_eq] at hpo
          obtain ⟨rfl, rfl⟩ := hpo
          have : between t a b = (k, c) :: between { t with conns := erase t.conns k, links := t.links.filter (· ≠ k) } a b :=
            erase_first (P := fun c : LeConn => c.address.address = a && c.own.address = b) hn hf
          rw [this, List.drop_succ_cons]
        · simp only [hpo]
          have : between { t with conns := erase t.conns k, links := t.links.filter (· ≠ k) } peer own = between t peer own := by
            apply erase_other (Q := fun c : LeConn => c.address.address = peer && c.own.address = own) hn g1
            simp only [Bool.and_eq_true, decide_eq_true_eq] at g2
            rw [g2.1, g2.2]
            exact Bool.eq_false_iff.mpr hpo
          rw [this]
          simp
      · simp only [List.flatMap_cons, List.cons_append, List.nil_append]
        exact (h5.cons _).trans ((erase_perm hn g1).map (fun e : Nat × LeConn => Out.disconnected e.1 r))

end Verif.Bye
