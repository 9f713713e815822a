import Verif.Br.DataLemmas
import Verif.Br.PropsPair
/-!
# C68: data arrives in order, once, on the right connection

C68: what a host sends on a connection reaches the host at the other end in order, exactly once and unchanged, on its
handle of the connection, as long as nobody ends the connection; every packet is acknowledged exactly once. -/
namespace Verif.Br
open Verif.Conn (find)

/-! ## One controller -/

/-- A step that ends no connection. -/
def lasts (s : Ctl) (now : Nat) : Act → Bool
  | .cmd (.disconnect _ _) => false
  | .cmd .reset => false
  | .check _ => s.acl.all (fun e => now ≤ e.2.last + 3000000000)
  | .packet _ _ _ (.disconnect _) => false
  | _ => true

/-- What a step sends on a connection. -/
def puts (h : Nat) : Act → List Data
  | .cmd (.acl k pb bc d) => if k = h then [(pb, bc, d)] else []
  | _ => []

/-- What a step delivers. -/
def gets (me : Nat) : Act → List Data
  | .packet _ dst _ (.acl pb bc d) => if dst = 0 ∨ dst = me then [asReceived (pb, bc, d)] else []
  | _ => []

theorem dull_air {x : Nat} {out : List (Nat × Pkt)} (h : ∀ o ∈ out, dullPkt o.2 = true) : onAir x out = [] := by
  refine List.filterMap_eq_nil_iff.2 fun o ho => ?_
  obtain ⟨d, p⟩ := o
  have := h _ ho
  cases p <;> first
    | rfl
    | cases this

theorem dull_undisturbed {out : List (Nat × Pkt)} (h : ∀ o ∈ out, dullPkt o.2 = true) : undisturbed out = true := by
  refine List.all_eq_true.2 fun o ho => ?_
  obtain ⟨d, p⟩ := o
  have := h _ ho
  cases p <;> first
    | rfl
    | cases this

theorem dull_got {h : Nat} {ev : List Ev} (hd : ∀ e ∈ ev, dullEv e = true) : got h ev = [] := by
  refine List.filterMap_eq_nil_iff.2 fun e he => ?_
  have := hd _ he
  cases e <;> first
    | rfl
    | cases this

theorem dull_acks {ev : List Ev} (hd : ∀ e ∈ ev, dullEv e = true) : acks ev = [] := by
  refine List.filterMap_eq_nil_iff.2 fun e he => ?_
  have := hd _ he
  cases e <;> first
    | rfl
    | cases this

/-- The connection with a device has one handle. -/
theorem aclOf_linked {s : Ctl} (hi : Inv s) {h a : Nat} (hl : linked s h a) : ∃ c, aclOf s a = some (h, c) := by
  obtain ⟨c, hm, hc⟩ := hl
  cases hf : aclOf s a with
  | none => exact absurd (List.mem_map.2 ⟨_, hm, hc⟩) (aclOf_none.1 hf)
  | some e =>
    obtain ⟨k, d⟩ := e
    have h1 := aclOf_some hf
    have h2 : (h, c) = (k, d) := by
      have := hi.nodup
      unfold peers at this
      exact List.inj_on_of_nodup_map this hm h1.1 (hc.trans h1.2.symm)
    cases h2
    exact ⟨c, rfl⟩

theorem lasts_step {s : Ctl} (hi : Inv s) {h y : Nat} (hl : linked s h y) {now : Nat} {x : Act} (hx : lasts s now x = true)
    (hsrc : ∀ src dst r p, x = .packet src dst r p → src = y)
    {st : Status} {s' : Ctl} {out : List (Nat × Pkt)} {ev : List Ev} (hs : step s now x = .ok st s' out ev) :
    linked s' h y ∧ undisturbed out = true ∧ onAir y out = puts h x ∧ got h ev = gets s.addr x := by
  have dull : still s now x = true → puts h x = [] → gets s.addr x = [] →
      linked s' h y ∧ undisturbed out = true ∧ onAir y out = puts h x ∧ got h ev = gets s.addr x := by
    intro h1 h2 h3
    have h4 := step_still hi now x h1
    rw [hs] at h4
    obtain ⟨c, hm, hc⟩ := hl
    obtain ⟨c', hm', hc'⟩ := h4.keep h c hm
    rw [h2, h3]
    exact ⟨⟨c', hm', hc'.trans hc⟩, dull_undisturbed h4.out, dull_air h4.out, dull_got h4.ev⟩
  cases x with
  | tick => exact dull rfl rfl rfl
  | check k => exact dull hx rfl rfl
  | cmd c =>
    cases c with
    | acl k pb bc d =>
      simp only [step, command, sendAcl] at hs
      split at hs
      · cases hs
      · split at hs
        · rename_i hf
          cases hs
          refine ⟨hl, rfl, ?_, rfl⟩
          obtain ⟨c, hm, hc⟩ := hl
          have h1 : k ≠ h := by
            intro h1
            subst h1
            rw [Conn.mem_find _ hi.sound.nodup _ _ hm] at hf
            cases hf
          simp [puts, h1, onAir]
        · rename_i c1 hf
          cases hs
          refine ⟨hl, rfl, ?_, rfl⟩
          have h0 : c1.addr ≠ 0 := by
            intro h0
            exact hi.zero (List.mem_map.2 ⟨_, Conn.find_mem _ _ _ hf, h0⟩)
          by_cases hk : k = h
          · subst hk
            obtain ⟨c, hm, hc⟩ := hl
            have := unique hi.sound.nodup hm (Conn.find_mem _ _ _ hf)
            subst this
            simp [puts, onAir, hc]
          · have h1 : c1.addr ≠ y := by
              intro h1
              obtain ⟨c2, h2⟩ := aclOf_linked hi hl
              obtain ⟨c3, h3⟩ := aclOf_linked hi ⟨c1, Conn.find_mem _ _ _ hf, h1⟩
              rw [h2] at h3
              injection h3 with h3
              injection h3 with h3
              exact hk h3.symm
            simp [puts, onAir, h0, h1, hk]
    | disconnect k r => cases hx
    | reset => cases hx
    | _ => exact dull rfl rfl rfl
  | packet src dst r p =>
    cases p with
    | disconnect r => cases hx
    | acl pb bc d =>
      have := hsrc _ _ _ _ rfl
      subst this
      simp only [step, incoming] at hs
      split at hs
      · rename_i hd
        cases hs
        refine ⟨hl, rfl, rfl, ?_⟩
        have : ¬(dst = 0 ∨ dst = s.addr) := by
          rintro (h1 | h1)
          · exact hd.1 h1
          · exact hd.2 h1
        simp [gets, this, got]
      · rename_i hd
        have hd' : dst = 0 ∨ dst = s.addr := by
          by_cases h1 : dst = 0
          · exact .inl h1
          · exact .inr (Classical.byContradiction fun h2 => hd ⟨h1, h2⟩)
        obtain ⟨c, hm, hc⟩ := hl
        obtain ⟨c', hm', hc'⟩ := touch_keep hi now src h c hm
        have hl' : linked (touch s now src) h src := ⟨c', hm', hc'.trans hc⟩
        obtain ⟨c2, h2⟩ := aclOf_linked (touch_inv hi now src).1 hl'
        simp only [dispatch, onAcl, h2] at hs
        cases hs
        refine ⟨hl', rfl, rfl, ?_⟩
        simp [got, gets, hd', asReceived]
    | _ => exact dull rfl rfl rfl

/-! ## Two controllers -/

/-- The two ends of a connection, and nothing on its way that ends it. -/
structure Joined (a b hA hB : Nat) (n : Net) : Prop where
  invA : Inv n.a
  invB : Inv n.b
  addrA : n.a.addr = a
  addrB : n.b.addr = b
  linkA : linked n.a hA b
  linkB : linked n.b hB a
  airA : undisturbed n.toA = true
  airB : undisturbed n.toB = true

theorem air_append (x : Nat) (l m : List (Nat × Pkt)) : onAir x (l ++ m) = onAir x l ++ onAir x m := List.filterMap_append
theorem got_append (h : Nat) (l m : List Ev) : got h (l ++ m) = got h l ++ got h m := List.filterMap_append

theorem undisturbed_append {l m : List (Nat × Pkt)} (h1 : undisturbed l = true) (h2 : undisturbed m = true) : undisturbed (l ++ m) = true := by
  unfold undisturbed at *
  rw [List.all_append, h1, h2]
  rfl

theorem undisturbed_tail {o : Nat × Pkt} {l : List (Nat × Pkt)} (h : undisturbed (o :: l) = true) : undisturbed l = true ∧
    undisturbed [o] = true := by
  simp only [undisturbed, List.all_cons, List.all_nil, Bool.and_true, Bool.and_eq_true] at h ⊢
  exact ⟨h.2, h.1⟩

/-- The host's packet of a step of the network. -/
def putsN (h : Nat) : NAct → List Data
  | .hostA c => puts h (.cmd c)
  | _ => []

/-- What a step does to the data from A to B. -/
def Carries (a b hA hB : Nat) (n : Net) (x : NAct) (r : Net × List Ev × List Ev) : Prop :=
  Joined a b hA hB r.1 ∧ got hB r.2.2 ++ (onAir b r.1.toB).map asReceived = (onAir b n.toB ++ putsN hA x).map asReceived

theorem stepA {a b hA hB : Nat} {n : Net} (hj : Joined a b hA hB n) {now : Nat} {act : Act} {q : List (Nat × Pkt)}
    (hl : lasts n.a now act = true) (hn : Named act) (hsrc : ∀ src dst r p, act = .packet src dst r p → src = b) (hq : undisturbed q = true)
    {r : Net × List Ev × List Ev} (h : putA n q (step n.a now act) = some r) :
    Joined a b hA hB r.1 ∧ got hB r.2.2 ++ (onAir b r.1.toB).map asReceived = (onAir b n.toB ++ puts hA act).map asReceived := by
  cases hs : step n.a now act with
  | ok st s' out ev =>
    rw [hs] at h
    cases h
    obtain ⟨h1, h2, h3, -⟩ := lasts_step hj.invA hj.linkA hl hsrc hs
    refine ⟨⟨inv_after hj.invA hn hs, hj.invB, (step_addr hs).trans hj.addrA, hj.addrB, h1, hj.linkB, hq, undisturbed_append hj.airB h2⟩, ?_⟩
    show _ ++ (onAir b (n.toB ++ out)).map asReceived = _
    rw [air_append, h3]
    rfl
  | _ =>
    rw [hs] at h
    cases h

theorem stepB {a b hA hB : Nat} {n : Net} (hj : Joined a b hA hB n) {now : Nat} {act : Act} {q : List (Nat × Pkt)}
    (hl : lasts n.b now act = true) (hn : Named act) (hsrc : ∀ src dst r p, act = .packet src dst r p → src = a) (hq : undisturbed q = true)
    {r : Net × List Ev × List Ev} (h : putB n q (step n.b now act) = some r) :
    Joined a b hA hB r.1 ∧ got hB r.2.2 = gets b act ∧ r.1.toB = q := by
  cases hs : step n.b now act with
  | ok st s' out ev =>
    rw [hs] at h
    cases h
    obtain ⟨h1, h2, -, h4⟩ := lasts_step hj.invB hj.linkB hl hsrc hs
    rw [hj.addrB] at h4
    exact ⟨⟨hj.invA, inv_after hj.invB hn hs, hj.addrA, (step_addr hs).trans hj.addrB, hj.linkA, h1, undisturbed_append hj.airA h2, hq⟩, h4, rfl⟩
  | _ =>
    rw [hs] at h
    cases h

theorem lasts_packet {s : Ctl} {now src dst r d : Nat} {p : Pkt} (h : undisturbed [(d, p)] = true) : lasts s now (.packet src dst r p) = true := by
  cases p <;> first
    | rfl
    | exact absurd h (by decide)
    | cases h

theorem carries {a b hA hB : Nat} (ha : a ≠ 0) (hb : b ≠ 0) {n : Net} (hj : Joined a b hA hB n) {now : Nat} {x : NAct}
    (hc : calm n now x = true) {r : Net × List Ev × List Ev} (h : nstep n now x = some r) : Carries a b hA hB n x r := by
  have quiet : ∀ act, (act = .tick ∨ (∃ c, act = .cmd c) ∨ ∃ k, act = .check k) → lasts n.b now act = true → Named act →
      putB n n.toB (step n.b now act) = some r → putsN hA x = [] → Carries a b hA hB n x r := by
    intro act h1 h2 h3 h4 h5
    have h6 : ∀ src dst r p, act = .packet src dst r p → src = a := by
      intro src dst r p h7
      rcases h1 with h1 | ⟨c, h1⟩ | ⟨k, h1⟩ <;> rw [h1] at h7 <;> cases h7
    obtain ⟨h7, h8, h9⟩ := stepB hj h2 h3 h6 hj.airB h4
    refine ⟨h7, ?_⟩
    have h10 : gets b act = [] := by
      rcases h1 with h1 | ⟨c, h1⟩ | ⟨k, h1⟩ <;> rw [h1] <;> rfl
    rw [h8, h9, h10, h5]
    simp
  cases x with
  | hostA c =>
    refine stepA hj (act := .cmd c) ?_ ?_ nofun hj.airA h
    · cases c <;> first
        | rfl
        | cases hc
    · cases c with
      | create x w =>
        have h1 : x ≠ 0 := by simpa [calm] using hc
        exact h1
      | _ => trivial
  | tickA => exact stepA hj (act := .tick) rfl trivial nofun hj.airA h
  | checkA k => exact stepA hj (act := .check k) hc trivial nofun hj.airA h
  | arriveA =>
    simp only [nstep] at h
    split at h
    · cases h
      refine ⟨hj, ?_⟩
      simp [putsN, got]
    · rename_i d p q hto
      have h1 := hj.airA
      rw [hto] at h1
      refine stepA hj (act := .packet n.b.addr d 0 p) (lasts_packet (undisturbed_tail h1).2) ?_ ?_ (undisturbed_tail h1).1 h
      · rw [hj.addrB]
        exact hb
      · intro src dst r p h2
        cases h2
        exact hj.addrB
  | hostB c =>
    refine quiet (.cmd c) (.inr (.inl ⟨c, rfl⟩)) ?_ ?_ h rfl
    · cases c <;> first
        | rfl
        | cases hc
    · cases c with
      | create x w =>
        have h1 : x ≠ 0 := by simpa [calm] using hc
        exact h1
      | _ => trivial
  | tickB => exact quiet .tick (.inl rfl) rfl trivial h rfl
  | checkB k => exact quiet (.check k) (.inr (.inr ⟨k, rfl⟩)) hc trivial h rfl
  | arriveB =>
    simp only [nstep] at h
    split at h
    · cases h
      refine ⟨hj, ?_⟩
      simp [putsN, got]
    · rename_i d p q hto
      have h1 := hj.airB
      rw [hto] at h1
      obtain ⟨h2, h3, h4⟩ := stepB hj (act := .packet n.a.addr d 0 p) (lasts_packet (undisturbed_tail h1).2) (by
        rw [hj.addrA]
        exact ha) (by
        intro src dst r p h2
        cases h2
        exact hj.addrA) (undisturbed_tail h1).1 h
      refine ⟨h2, ?_⟩
      rw [h3, h4, hto]
      have h5 : gets b (.packet n.a.addr d 0 p) = (onAir b [(d, p)]).map asReceived := by
        cases p with
        | acl pb bc data =>
          by_cases h6 : d = 0 ∨ d = b <;> simp [gets, onAir, h6]
        | _ => rfl
      rw [h5]
      show _ = (onAir b ([(d, p)] ++ q) ++ []).map asReceived
      rw [air_append, List.append_nil, List.map_append]

theorem carries_run {a b hA hB : Nat} (ha : a ≠ 0) (hb : b ≠ 0) (xs : List (Nat × NAct)) {n n' : Net} (hj : Joined a b hA hB n)
    (hc : calmRun n xs = true) {ea eb : List Ev} (h : nrun n xs = some (n', ea, eb)) :
    Joined a b hA hB n' ∧ got hB eb ++ (onAir b n'.toB).map asReceived = (onAir b n.toB ++ sent hA xs).map asReceived := by
  induction xs generalizing n ea eb with
  | nil =>
    cases h
    refine ⟨hj, ?_⟩
    simp [got, sent]
  | cons x xs ih =>
    obtain ⟨now, x⟩ := x
    simp only [nrun] at h
    split at h
    · cases h
    · rename_i n1 e1 e2 hs
      rw [Option.map_eq_some_iff] at h
      obtain ⟨⟨n2, f1, f2⟩, h1, h2⟩ := h
      cases h2
      simp only [calmRun, hs, Bool.and_eq_true, Option.all_some] at hc
      obtain ⟨h2, h3⟩ := carries ha hb hj hc.1 hs
      obtain ⟨h4, h5⟩ := ih h2 hc.2 h1
      refine ⟨h4, ?_⟩
      have h6 : sent hA ((now, x) :: xs) = putsN hA x ++ sent hA xs := by
        cases x with
        | hostA c =>
          cases c with
          | acl k pb bc d =>
            by_cases hk : k = hA <;> simp [sent, putsN, puts, hk]
          | _ => rfl
        | _ => rfl
      show got hB (e2 ++ f2) ++ _ = _
      rw [got_append, h6, List.append_assoc, h5, List.map_append, ← List.append_assoc]
      have h3' : got hB e2 ++ (onAir b n1.toB).map asReceived = (onAir b n.toB ++ putsN hA x).map asReceived := h3
      rw [h3', ← List.map_append, List.append_assoc]

/-- The invariant of two controllers. -/
theorem net_inv (a b : Nat) (ha : a ≠ 0) (hb : b ≠ 0) (xs : List (Nat × NAct)) (hx : xs.all (fun x => named x.2) = true) {n n' : Net}
    (h1 : Inv n.a ∧ Inv n.b ∧ n.a.addr = a ∧ n.b.addr = b) {ea eb : List Ev} (h : nrun n xs = some (n', ea, eb)) :
    Inv n'.a ∧ Inv n'.b ∧ n'.a.addr = a ∧ n'.b.addr = b := by
  induction xs generalizing n ea eb with
  | nil =>
    cases h
    exact h1
  | cons x xs ih =>
    obtain ⟨now, x⟩ := x
    simp only [nrun] at h
    split at h
    · cases h
    · rename_i n1 e1 e2 hs
      rw [Option.map_eq_some_iff] at h
      obtain ⟨⟨n2, f1, f2⟩, h2, h3⟩ := h
      cases h3
      simp only [List.all_cons, Bool.and_eq_true] at hx
      refine ih hx.2 ?_ h2
      have goA : ∀ act q, Named act → putA n q (step n.a now act) = some (n1, e1, e2) → Inv n1.a ∧ Inv n1.b ∧ n1.a.addr = a ∧ n1.b.addr = b := by
        intro act q hn hp
        cases ht : step n.a now act with
        | ok st s' out ev =>
          rw [ht] at hp
          cases hp
          exact ⟨inv_after h1.1 hn ht, h1.2.1, (step_addr ht).trans h1.2.2.1, h1.2.2.2⟩
        | _ =>
          rw [ht] at hp
          cases hp
      have goB : ∀ act q, Named act → putB n q (step n.b now act) = some (n1, e1, e2) → Inv n1.a ∧ Inv n1.b ∧ n1.a.addr = a ∧ n1.b.addr = b := by
        intro act q hn hp
        cases ht : step n.b now act with
        | ok st s' out ev =>
          rw [ht] at hp
          cases hp
          exact ⟨h1.1, inv_after h1.2.1 hn ht, h1.2.2.1, (step_addr ht).trans h1.2.2.2⟩
        | _ =>
          rw [ht] at hp
          cases hp
      cases x with
      | hostA c =>
        refine goA (.cmd c) _ ?_ hs
        cases c with
        | create x w =>
          have h4 : x ≠ 0 := by simpa [named] using hx.1
          exact h4
        | _ => trivial
      | hostB c =>
        refine goB (.cmd c) _ ?_ hs
        cases c with
        | create x w =>
          have h4 : x ≠ 0 := by simpa [named] using hx.1
          exact h4
        | _ => trivial
      | tickA => exact goA .tick _ trivial hs
      | tickB => exact goB .tick _ trivial hs
      | checkA k => exact goA (.check k) _ trivial hs
      | checkB k => exact goB (.check k) _ trivial hs
      | arriveA =>
        simp only [nstep] at hs
        split at hs
        · cases hs
          exact h1
        · refine goA (.packet n.b.addr _ 0 _) _ ?_ hs
          rw [h1.2.2.2]
          exact hb
      | arriveB =>
        simp only [nstep] at hs
        split at hs
        · cases hs
          exact h1
        · refine goB (.packet n.a.addr _ 0 _) _ ?_ hs
          rw [h1.2.2.1]
          exact ha

/-! ## The theorems -/

/-- After any history of two devices in which they got connected, and as long as nobody ends the connection: what B's
host gets on its handle, and then what is still on its way, is what was on its way and then what A's host sent on its
handle, in this order, whatever else the two do. -/
theorem C68_in_order (a b : Nat) (ha : a ≠ 0) (hb : b ≠ 0) (ia ib : Info) (na nb : Nat) (before : List (Nat × NAct))
    (hx : before.all (fun x => named x.2) = true) (n : Net) (ea eb : List Ev) (hbefore : nrun (Net.fresh a b ia ib na nb) before = some (n, ea, eb))
    (hA hB : Nat) (hlA : linked n.a hA b) (hlB : linked n.b hB a) (hu : undisturbed n.toA = true ∧ undisturbed n.toB = true)
    (xs : List (Nat × NAct)) (hc : calmRun n xs = true) (n' : Net) (ea' eb' : List Ev) (h : nrun n xs = some (n', ea', eb')) :
    linked n'.a hA b ∧ linked n'.b hB a ∧
      got hB eb' ++ (onAir b n'.toB).map asReceived = (onAir b n.toB ++ sent hA xs).map asReceived := by
  obtain ⟨h1, h2, h3, h4⟩ := net_inv a b ha hb before hx ⟨fresh_inv a ia na, fresh_inv b ib nb, rfl, rfl⟩ hbefore
  obtain ⟨h5, h6⟩ := carries_run ha hb xs ⟨h1, h2, h3, h4, hlA, hlB, hu.1, hu.2⟩ hc h
  exact ⟨h5.linkA, h5.linkB, h6⟩

/-- A sends on handle 0, and on a handle it does not have; B sends too. -/
def chatter : List (Nat × NAct) :=
  [(2000000000, .hostA (.acl 0 0 0 [1, 2])), (2000000001, .hostA (.acl 0 1 0 [3])), (2000000002, .hostB (.acl 0 0 0 [9])), (2000000003, .hostA (.acl 7 0 0 [4])),
   (2000000004, .arriveB), (2000000005, .arriveA), (2000000006, .checkA 0), (2000000007, .arriveB), (2000000008, .hostA (.acl 0 2 0 [5]))]

example : courtship.all (fun x => named x.2) = true ∧
    (nrun exampleNet courtship).map (fun r => (r.1.a.acl.map (fun e => (e.1, e.2.addr)), r.1.b.acl.map (fun e => (e.1, e.2.addr)))) =
      some ([(0, 0xB)], [(0, 0xA)]) ∧
    (nrun exampleNet courtship).map (fun r => (undisturbed r.1.toA && undisturbed r.1.toB, calmRun r.1 chatter)) = some (true, true) := by
  decide +kernel

example : (nrun exampleNet (courtship ++ chatter)).map (fun r => (got 0 r.2.2, onAir 0xB r.1.toB)) =
      some ([(2, 0, [1, 2]), (1, 0, [3])], [(2, 0, [5])]) := by
  decide +kernel

/-! ## The other direction -/

def NAct.swap : NAct → NAct
  | .hostA c => .hostB c
  | .hostB c => .hostA c
  | .tickA => .tickB
  | .tickB => .tickA
  | .checkA h => .checkB h
  | .checkB h => .checkA h
  | .arriveA => .arriveB
  | .arriveB => .arriveA

def Net.swap (n : Net) : Net := ⟨n.b, n.a, n.toB, n.toA⟩

def swaps (xs : List (Nat × NAct)) : List (Nat × NAct) := xs.map (fun x => (x.1, x.2.swap))

def swapR (r : Net × List Ev × List Ev) : Net × List Ev × List Ev := (r.1.swap, r.2.2, r.2.1)

theorem putA_swap (n : Net) (q : List (Nat × Pkt)) (r : Res) : putA n.swap q r = (putB n q r).map swapR := by
  cases r <;> rfl

theorem putB_swap (n : Net) (q : List (Nat × Pkt)) (r : Res) : putB n.swap q r = (putA n q r).map swapR := by
  cases r <;> rfl

theorem nstep_swap (n : Net) (now : Nat) (x : NAct) : nstep n.swap now x.swap = (nstep n now x).map swapR := by
  cases x with
  | arriveA =>
    obtain ⟨a, b, toA, toB⟩ := n
    cases toA with
    | nil => rfl
    | cons o q => exact putB_swap ⟨a, b, o :: q, toB⟩ q _
  | arriveB =>
    obtain ⟨a, b, toA, toB⟩ := n
    cases toB with
    | nil => rfl
    | cons o q => exact putA_swap ⟨a, b, toA, o :: q⟩ q _
  | hostA => exact putB_swap n _ _
  | hostB => exact putA_swap n _ _
  | tickA => exact putB_swap n n.toA (tick n.a now)
  | tickB => exact putA_swap n n.toB (tick n.b now)
  | checkA => exact putB_swap n _ _
  | checkB => exact putA_swap n _ _

theorem nrun_swap (xs : List (Nat × NAct)) (n : Net) : nrun n.swap (swaps xs) = (nrun n xs).map swapR := by
  induction xs generalizing n with
  | nil => rfl
  | cons x xs ih =>
    obtain ⟨now, x⟩ := x
    simp only [swaps, List.map_cons, nrun]
    rw [nstep_swap]
    cases nstep n now x with
    | none => rfl
    | some r =>
      obtain ⟨n1, e1, e2⟩ := r
      have := ih n1
      simp only [swaps] at this
      simp only [Option.map_some, swapR, this]
      cases nrun n1 xs with
      | none => rfl
      | some r => rfl

theorem calm_swap (n : Net) (now : Nat) (x : NAct) : calm n.swap now x.swap = calm n now x := by
  cases x with
  | hostA c => cases c <;> rfl
  | hostB c => cases c <;> rfl
  | _ => rfl

theorem calmRun_swap (xs : List (Nat × NAct)) (n : Net) : calmRun n.swap (swaps xs) = calmRun n xs := by
  induction xs generalizing n with
  | nil => rfl
  | cons x xs ih =>
    obtain ⟨now, x⟩ := x
    simp only [swaps, List.map_cons, calmRun]
    rw [nstep_swap, calm_swap]
    cases nstep n now x with
    | none => rfl
    | some r =>
      have := ih r.1
      simp only [swaps] at this
      simp only [Option.map_some, Option.all_some, swapR, this]

theorem sent_swap (h : Nat) (xs : List (Nat × NAct)) : sent h (swaps xs) = sentBack h xs := by
  unfold sent sentBack swaps
  rw [List.filterMap_map]
  congr 1
  funext x
  obtain ⟨now, x⟩ := x
  cases x with
  | hostA c => cases c <;> rfl
  | hostB c => cases c <;> rfl
  | _ => rfl

theorem named_swap (xs : List (Nat × NAct)) : (swaps xs).all (fun x => named x.2) = xs.all (fun x => named x.2) := by
  unfold swaps
  rw [List.all_map]
  congr 1
  funext x
  obtain ⟨now, x⟩ := x
  cases x with
  | hostA c => cases c <;> rfl
  | hostB c => cases c <;> rfl
  | _ => rfl

/-- The same from B to A. -/
theorem C68_in_order_back (a b : Nat) (ha : a ≠ 0) (hb : b ≠ 0) (ia ib : Info) (na nb : Nat) (before : List (Nat × NAct))
    (hx : before.all (fun x => named x.2) = true) (n : Net) (ea eb : List Ev) (hbefore : nrun (Net.fresh a b ia ib na nb) before = some (n, ea, eb))
    (hA hB : Nat) (hlA : linked n.a hA b) (hlB : linked n.b hB a) (hu : undisturbed n.toA = true ∧ undisturbed n.toB = true)
    (xs : List (Nat × NAct)) (hc : calmRun n xs = true) (n' : Net) (ea' eb' : List Ev) (h : nrun n xs = some (n', ea', eb')) :
    got hA ea' ++ (onAir a n'.toA).map asReceived = (onAir a n.toA ++ sentBack hB xs).map asReceived := by
  have h1 : nrun (Net.fresh b a ib ia nb na) (swaps before) = some (n.swap, eb, ea) := by
    have := nrun_swap before (Net.fresh a b ia ib na nb)
    rw [hbefore] at this
    exact this
  have h2 : nrun n.swap (swaps xs) = some (n'.swap, eb', ea') := by
    rw [nrun_swap, h]
    rfl
  have h3 := C68_in_order b a hb ha ib ia nb na (swaps before) (by rw [named_swap]; exact hx) n.swap eb ea h1 hB hA hlB hlA ⟨hu.2, hu.1⟩ (swaps xs)
    (by rw [calmRun_swap]; exact hc) n'.swap eb' ea' h2
  rw [sent_swap] at h3
  exact h3.2.2

example : (nrun exampleNet (courtship ++ chatter)).map (fun r => (got 0 r.2.1, onAir 0xA r.1.toA)) = some ([(2, 0, [9])], []) := by
  decide +kernel

/-! ## Acknowledgements -/

theorem acks_tell {s : Ctl} {code : Nat} {e : Ev} (h : dullEv e = true) : acks (tell s code e) = [] := dull_acks (tell_all h)

theorem acks_append (l m : List Ev) : acks (l ++ m) = acks l ++ acks m := List.filterMap_append

theorem disconnect_acks {s s' : Ctl} {k r1 r2 : Nat} {st : Status} {out : List (Nat × Pkt)} {ev : List Ev}
    (h : disconnect s k r1 r2 = .ok st s' out ev) : acks ev = [] := by
  unfold disconnect at h
  split at h
  · cases h
    exact acks_tell rfl
  · split at h
    · cases h
      rfl
    · split at h
      · split at h
        · cases h
        · cases h
          rw [acks_append, acks_tell rfl, acks_tell rfl]
          rfl
      · split at h
        · cases h
        · cases h
          exact acks_tell rfl

theorem step_acks {s s' : Ctl} (hi : Inv s) {now : Nat} {x : Act} {st : Status} {out : List (Nat × Pkt)} {ev : List Ev}
    (h : step s now x = .ok st s' out ev) : acks ev = (handed [⟨now, x, st, out, ev⟩]).map (fun h => (h, 1)) := by
  have dull : still s now x = true → handed [⟨now, x, st, out, ev⟩] = [] → acks ev = (handed [⟨now, x, st, out, ev⟩]).map (fun h => (h, 1)) := by
    intro h1 h2
    have h3 := step_still hi now x h1
    rw [h] at h3
    rw [h2]
    exact dull_acks h3.ev
  cases x with
  | tick => exact dull rfl rfl
  | check k =>
    simp only [step, checkExpiring] at h
    show acks ev = []
    split at h
    · cases h
      rfl
    · split at h
      · exact disconnect_acks h
      · split at h <;> cases h <;> rfl
  | cmd c =>
    cases c with
    | acl k pb bc d =>
      simp only [step, command, sendAcl] at h
      (repeat' split at h) <;> cases h <;> rfl
    | disconnect k r => exact disconnect_acks h
    | reset =>
      cases h
      rfl
    | _ => exact dull rfl rfl
  | packet src dst r p =>
    cases p with
    | acl pb bc d =>
      simp only [step, incoming, dispatch, onAcl] at h
      (repeat' split at h) <;> cases h <;> rfl
    | disconnect r =>
      simp only [step, incoming, dispatch, onDisconnect] at h
      (repeat' split at h) <;> cases h <;> first
        | rfl
        | exact acks_tell rfl
    | _ => exact dull rfl rfl

/-- Every data packet a host hands over is acknowledged exactly once, with its handle, in order, in every history. -/
theorem C68_acknowledged (addr : Nat) (i : Info) (k : Nat) (as : List (Nat × Act)) (hx : ∀ x ∈ as, Named x.2) (s : Ctl) (l : List Seen)
    (h : run (Ctl.fresh addr i k) as = some (s, l)) : acks (l.flatMap Seen.ev) = (handed l).map (fun h => (h, 1)) := by
  have go : ∀ (as : List (Nat × Act)) (s0 : Ctl), Inv s0 → (∀ x ∈ as, Named x.2) → ∀ s l, run s0 as = some (s, l) →
      acks (l.flatMap Seen.ev) = (handed l).map (fun h => (h, 1)) := by
    intro as
    induction as with
    | nil =>
      intro s0 _ _ s l h
      cases h
      rfl
    | cons x as ih =>
      intro s0 hi hx s l h
      obtain ⟨now, x⟩ := x
      simp only [run] at h
      split at h
      · rename_i st s1 out ev hs
        rw [Option.map_eq_some_iff] at h
        obtain ⟨⟨s2, l2⟩, h1, h2⟩ := h
        cases h2
        have h3 := ih s1 (inv_after hi (hx _ List.mem_cons_self) hs) (fun x h => hx x (List.mem_cons_of_mem _ h)) _ _ h1
        have h4 := step_acks hi hs
        rw [List.flatMap_cons, acks_append, h3, h4, ← List.map_append]
        congr 1
        show _ = handed ([_] ++ l2)
        unfold handed
        rw [List.filterMap_append]
      · cases h
  exact go as _ (fresh_inv addr i k) hx s l h

example : (run exampleA (connectB ++ [(1200000000, .cmd (.acl 0 0 0 [1])), (1200000001, .cmd (.acl 9 0 0 [2]))])).map
    (fun r => (acks (r.2.flatMap Seen.ev), handed r.2)) = some ([(0, 1), (9, 1)], [0, 9]) := by
  decide +kernel

end Verif.Br
