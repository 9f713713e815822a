import Verif.Br.SpecBook
import Verif.Br.PlainLemmas
/-!
# The book of a host and the connections of its controller
-/
namespace Verif.Br
open Verif.Conn (Table find erase keys)

/-- What the book says of a connection. -/
def entry (c : Acl) : Nat × Role := (c.addr, c.role)

def bookIs (t : Table Acl) : Book := fun k => (find t k).map entry

/-- The book is right. -/
structure Booked (s : Ctl) (b : Book) : Prop where
  book : ∀ k, bookIs s.acl k = b k
  connHeard : s.mask.testBit 2 = true
  discHeard : s.mask.testBit 4 = true
  roleHeard : s.mask.testBit 17 = true
  later : ∀ r ∈ s.later, r.2 ≠ 0

theorem tell_conn {s : Ctl} (h : s.mask.testBit 2 = true) (e : Ev) : tell s 0x03 e = [e] := by
  unfold tell unmasked; rw [if_pos h]

theorem tell_disc {s : Ctl} (h : s.mask.testBit 4 = true) (e : Ev) : tell s 0x05 e = [e] := by
  unfold tell unmasked; rw [if_pos h]

theorem tell_role {s : Ctl} (h : s.mask.testBit 17 = true) (e : Ev) : tell s 0x12 e = [e] := by
  unfold tell unmasked; rw [if_pos h]

/-! ### Tables -/

theorem find_update' {C : Type} (t : Table C) (h : Nat) (c : C) (k : Nat) (hin : h ∈ keys t) :
    find (update t h c) k = if k = h then some c else find t k := by
  induction t with
  | nil => cases hin
  | cons e t ih =>
    obtain ⟨a, d⟩ := e
    by_cases ha : a = h
    · subst ha
      have h1 : update ((a, d) :: t) a c = (a, c) :: update t a c := by simp [update]
      rw [h1]
      show (if a = k then some c else find (update t a c) k) = _
      by_cases hk : a = k
      · rw [if_pos hk, if_pos hk.symm]
      · rw [if_neg hk, if_neg (Ne.symm hk)]
        have h2 : ∀ t : Table C, find (update t a c) k = find t k := by
          intro t
          induction t with
          | nil => rfl
          | cons e t ih =>
            obtain ⟨b, f⟩ := e
            by_cases hb : b = a
            · subst hb
              have : update ((b, f) :: t) b c = (b, c) :: update t b c := by simp [update]
              rw [this]
              show (if b = k then some c else find (update t b c) k) = if b = k then some f else find t k
              rw [if_neg hk, if_neg hk, ih]
            · have : update ((b, f) :: t) a c = (b, f) :: update t a c := by simp [update, hb]
              rw [this]
              show (if b = k then some f else find (update t a c) k) = if b = k then some f else find t k
              rw [ih]
        rw [h2]
        show find t k = if a = k then some d else find t k
        rw [if_neg hk]
    · have h1 : update ((a, d) :: t) h c = (a, d) :: update t h c := by simp [update, ha]
      rw [h1]
      show (if a = k then some d else find (update t h c) k) = if k = h then some c else (if a = k then some d else find t k)
      have hin' : h ∈ keys t := by
        rcases List.mem_cons.1 hin with he | he
        · exact absurd he.symm ha
        · exact he
      rw [ih hin']
      by_cases hk : a = k
      · rw [if_pos hk, if_pos hk, if_neg (fun he => ha (hk.trans he))]
      · rw [if_neg hk, if_neg hk]

theorem find_erase' {C : Type} (t : Table C) (h k : Nat) : find (erase t h) k = if k = h then none else find t k := by
  induction t with
  | nil => simp [erase, find]
  | cons e t ih =>
    obtain ⟨a, c⟩ := e
    simp only [erase] at ih ⊢
    by_cases ha : a = h
    · rw [List.filter_cons_of_neg (by simp [ha]), ih]
      by_cases hk : k = h
      · rw [if_pos hk, if_pos hk]
      · rw [if_neg hk, if_neg hk]
        exact (if_neg (fun he : a = k => hk (he.symm.trans ha))).symm
    · rw [List.filter_cons_of_pos (by simp [ha])]
      show (if a = k then some c else find (List.filter (fun e => e.1 ≠ h) t) k) = _
      rw [ih]
      by_cases hk : k = h
      · rw [if_pos hk, if_pos hk, if_neg (fun he : a = k => ha (he.trans hk))]
      · rw [if_neg hk, if_neg hk]; rfl

theorem mem_keys {C : Type} {t : Table C} {h : Nat} {c : C} (hm : (h, c) ∈ t) : h ∈ keys t := List.mem_map.2 ⟨_, hm, rfl⟩

/-- A change that does not concern the peer and the role. -/
theorem bookIs_update {s : Ctl} (hi : Inv s) {h : Nat} {c d : Acl} (hm : (h, c) ∈ s.acl) (he : entry d = entry c) :
    bookIs (update s.acl h d) = bookIs s.acl := by
  funext k
  unfold bookIs
  rw [find_update' _ _ _ _ (mem_keys hm)]
  by_cases hk : k = h
  · rw [if_pos hk, hk, Conn.mem_find _ hi.sound.nodup _ _ hm, Option.map_some, Option.map_some, he]
  · rw [if_neg hk]

theorem bookIs_touch {s : Ctl} (hi : Inv s) (now src : Nat) : bookIs (touch s now src).acl = bookIs s.acl := by
  unfold touch
  split
  · rfl
  · rename_i h c hf
    exact bookIs_update hi (aclOf_some hf).1 rfl

/-- There is one connection with a device. -/
theorem sameAddr {s : Ctl} (hi : Inv s) {h k : Nat} {c d : Acl} (h1 : (h, c) ∈ s.acl) (h2 : (k, d) ∈ s.acl) (ha : c.addr = d.addr) :
    h = k := by
  have := hi.nodup
  unfold peers at this
  have h3 : (h, c) = (k, d) := List.inj_on_of_nodup_map this h1 h2 ha
  exact congrArg Prod.fst h3

/-- The role with a device changes. -/
theorem bookIs_role {s : Ctl} (hi : Inv s) {h a : Nat} {c : Acl} (hf : aclOf s a = some (h, c)) (r : Role) (k : Nat) :
    bookIs (update s.acl h { c with role := r }) k = (bookIs s.acl k).map (fun e => if e.1 = a then (a, r) else e) := by
  obtain ⟨hm, ha⟩ := aclOf_some hf
  unfold bookIs
  rw [find_update' _ _ _ _ (mem_keys hm)]
  by_cases hk : k = h
  · rw [if_pos hk, hk, Conn.mem_find _ hi.sound.nodup _ _ hm]
    simp only [Option.map_some, entry, ha, if_true]
  · rw [if_neg hk]
    cases hc : find s.acl k with
    | none => rfl
    | some e =>
      have hm' := Conn.find_mem _ _ _ hc
      have hne : e.addr ≠ a := by
        intro hea
        exact hk (sameAddr hi hm' hm (hea.trans ha.symm))
      simp only [Option.map_some, entry, if_neg hne]

theorem booked_aclOf {s : Ctl} (hi : Inv s) {b : Book} (hb : Booked s b) {a : Nat} :
    (∀ {k r}, b k = some (a, r) → ∃ c, aclOf s a = some (k, c) ∧ c.role = r) ∧
    (∀ {e}, aclOf s a = some e → b e.1 = some (a, e.2.role)) := by
  refine ⟨fun {k r} hk => ?_, fun {e} hc => ?_⟩
  · rw [← hb.book k] at hk
    unfold bookIs at hk
    rw [Option.map_eq_some_iff] at hk
    obtain ⟨c, hc, he⟩ := hk
    cases he
    have hm := Conn.find_mem _ _ _ hc
    cases hx : aclOf s c.addr with
    | none => exact absurd (List.mem_map.2 ⟨_, hm, rfl⟩) (aclOf_none.1 hx)
    | some e =>
      obtain ⟨j, d⟩ := e
      obtain ⟨m1, m2⟩ := aclOf_some hx
      have hj : j = k := sameAddr hi m1 hm m2
      subst hj
      have := Conn.mem_find _ hi.sound.nodup _ _ m1
      rw [hc] at this
      cases this
      exact ⟨c, rfl, rfl⟩
  · obtain ⟨k, c⟩ := e
    obtain ⟨m1, m2⟩ := aclOf_some hc
    rw [← hb.book k]
    unfold bookIs
    rw [Conn.mem_find _ hi.sound.nodup _ _ m1]
    show some (c.addr, c.role) = _
    rw [m2]

/-! ### Events -/

def Book.read (r : Role) (b : Book) (ev : List Ev) : Book := ev.foldl Book.turn (ev.foldl (Book.hear r) b)

theorem note_eq {b : Book} {x : Seen} (h : x.act ≠ .cmd .reset) :
    b.note x = b.read (if accepting x.act then .peripheral else .central) x.ev := by
  obtain ⟨now, act, st, out, ev⟩ := x
  cases act with
  | cmd c => cases c <;> first | rfl | exact absurd rfl h
  | _ => rfl

/-- Events that say nothing about connections. -/
def Dull (b : Book) (ev : List Ev) : Prop :=
  ∀ e ∈ ev, (∀ r, b.hear r e = b) ∧ b.turn e = b ∧ ∀ k r, e = .disconnComplete k r → 256 ≤ k

theorem Dull.read {b : Book} {ev : List Ev} (h : Dull b ev) (r : Role) : b.read r ev = b := by
  have h1 : ∀ l : List Ev, (∀ e ∈ l, b.hear r e = b) → l.foldl (Book.hear r) b = b := by
    intro l
    induction l with
    | nil => intro _; rfl
    | cons e l ih =>
      intro hl
      rw [List.foldl_cons, hl e (.head _)]
      exact ih (fun e he => hl e (.tail _ he))
  have h2 : ∀ l : List Ev, (∀ e ∈ l, b.turn e = b) → l.foldl Book.turn b = b := by
    intro l
    induction l with
    | nil => intro _; rfl
    | cons e l ih =>
      intro hl
      rw [List.foldl_cons, hl e (.head _)]
      exact ih (fun e he => hl e (.tail _ he))
  unfold Book.read
  rw [h1 ev (fun e he => (h e he).1 r), h2 ev (fun e he => (h e he).2.1)]

theorem dull_nil (b : Book) : Dull b [] := nofun

theorem Dull.append {b : Book} {l m : List Ev} (h : Dull b l) (g : Dull b m) : Dull b (l ++ m) := fun e he =>
  (List.mem_append.1 he).elim (h e) (g e)

/-- An event of another kind. -/
def Ev.dull : Ev → Bool
  | .connComplete st _ _ l => st != 0 || l != .acl
  | .disconnComplete _ _ => false
  | .roleChange st _ _ => st != 0
  | _ => true

theorem dull_ev {b : Book} {e : Ev} (h : e.dull = true) :
    (∀ r, b.hear r e = b) ∧ b.turn e = b ∧ ∀ k r, e = .disconnComplete k r → 256 ≤ k := by
  rw [← and_assoc]
  refine ⟨?_, fun k r he => by rw [he] at h; cases h⟩
  cases e with
  | connComplete st k a l =>
    refine ⟨fun r => ?_, rfl⟩
    simp only [Ev.dull, Bool.or_eq_true, bne_iff_ne] at h
    unfold Book.hear
    split
    · rename_i h1
      cases h1
      rcases h with h | h <;> exact absurd rfl h
    · rename_i h1; cases h1
    · rfl
  | disconnComplete => cases h
  | roleChange st a r =>
    refine ⟨fun _ => rfl, ?_⟩
    simp only [Ev.dull, bne_iff_ne] at h
    unfold Book.turn
    split
    · rename_i h1
      cases h1
      exact absurd rfl h
    · rfl
  | _ => exact ⟨fun _ => rfl, rfl⟩

theorem dull_all {b : Book} {ev : List Ev} (h : ∀ e ∈ ev, e.dull = true) : Dull b ev := fun e he => dull_ev (h e he)

theorem dull_tell {b : Book} {s : Ctl} {code : Nat} {e : Ev} (h : e.dull = true) : Dull b (tell s code e) := by
  unfold tell
  split
  · exact fun x hx => by rw [List.mem_singleton.1 hx]; exact dull_ev h
  · exact nofun

theorem dull_one {b : Book} {e : Ev} (h : e.dull = true) : Dull b [e] := fun x hx => by
  rw [List.mem_singleton.1 hx]; exact dull_ev h

/-- The end of a connection the book does not have. -/
theorem dull_gone {b : Book} {s : Ctl} {code k r : Nat} (h : b k = none ∧ 256 ≤ k) : Dull b (tell s code (.disconnComplete k r)) := by
  unfold tell
  split
  · intro x hx
    rw [List.mem_singleton.1 hx]
    refine ⟨fun _ => ?_, rfl, fun k' r' he => by cases he; exact h.2⟩
    funext i
    show (if i = k then none else b i) = b i
    by_cases hi : i = k
    · rw [if_pos hi, hi, h.1]
    · rw [if_neg hi]
  · exact nofun

/-- Synchronous handles are not in the book. -/
theorem sco_none {s : Ctl} (hi : Inv s) {b : Book} (hb : Booked s b) {k : Nat} (hk : k ∈ keys s.sco) : b k = none ∧ 256 ≤ k := by
  refine ⟨?_, (hi.ssound.range k hk).1⟩
  rw [← hb.book k]
  unfold bookIs
  have h1 := (hi.ssound.range k hk).1
  have h2 : find s.acl k = none := by
    rw [Conn.find_none_iff]
    intro hin
    have := (hi.sound.range k hin).2
    omega
  rw [h2]; rfl

theorem booked_known {s : Ctl} (hi : Inv s) {b : Book} (hb : Booked s b) {k : Nat} {c : Acl} (hk : (k, c) ∈ s.acl) : b k ≠ none := by
  rw [← hb.book k]
  unfold bookIs
  rw [Conn.mem_find _ hi.sound.nodup k c hk]
  exact nofun

/-- What the host is told is new. -/
def News (b : Book) (ev : List Ev) : Prop :=
  (∀ h a, .connComplete 0 h a .acl ∈ ev → b h = none ∧ h ≤ 255 ∧ ∀ k r, b k ≠ some (a, r)) ∧
  ∀ h r, .disconnComplete h r ∈ ev → b h ≠ none ∨ 256 ≤ h

/-- What a step must do: with the events read in a role. -/
def Books (b : Book) (r : Role) : Res → Prop
  | .ok _ s' _ ev => Booked s' (b.read r ev) ∧ News b ev
  | _ => True

theorem Dull.news {b : Book} {ev : List Ev} (h : Dull b ev) : News b ev := by
  refine ⟨fun k a he => ?_, fun k r he => .inr ((h _ he).2.2 k r rfl)⟩
  have h1 : ∀ r, some (a, r) = b k := fun r => by
    have := congrFun ((h _ he).1 r) k
    rw [← this]
    show _ = if k = k then some (a, r) else b k
    rw [if_pos rfl]
  have h2 := (h1 .central).trans (h1 .peripheral).symm
  cases h2

theorem Books.same {s s' : Ctl} {b : Book} {r : Role} {st : Nat} {out : List (Nat × Pkt)} {ev : List Ev} (hb : Booked s b)
    (h1 : s'.acl = s.acl) (h2 : s'.mask = s.mask) (h3 : s'.later = s.later) (hd : Dull b ev) : Books b r (.ok st s' out ev) := by
  refine ⟨?_, hd.news⟩
  rw [hd.read]
  exact ⟨by rw [h1]; exact hb.book, by rw [h2]; exact hb.connHeard, by rw [h2]; exact hb.discHeard, by rw [h2]; exact hb.roleHeard,
    by rw [h3]; exact hb.later⟩

theorem books_refuse {s : Ctl} {b : Book} {r : Role} {st : Nat} (hb : Booked s b) : Books b r (refuse s st) :=
  .same hb rfl rfl rfl (dull_nil b)

/-- A connection ends. -/
theorem books_end {s s' : Ctl} {b : Book} {r : Role} {st h why : Nat} {out : List (Nat × Pkt)} (hb : Booked s b)
    (h1 : s'.acl = erase s.acl h) (h2 : s'.mask = s.mask) (h3 : s'.later = s.later) (pre : List Ev) (hd : Dull b pre)
    (hk : b h ≠ none) : Books b r (.ok st s' out (pre ++ tell s 0x05 (.disconnComplete h why))) := by
  refine ⟨?_, ?_⟩
  rotate_left
  · rw [tell_disc hb.discHeard]
    refine ⟨fun k a he => (List.mem_append.1 he).elim (hd.news.1 k a) (fun hx => by cases List.mem_singleton.1 hx), fun k r he =>
      (List.mem_append.1 he).elim (hd.news.2 k r) (fun hx => by cases List.mem_singleton.1 hx; exact .inl hk)⟩
  have h4 : b.read r (pre ++ tell s 0x05 (.disconnComplete h why)) = fun k => if k = h then none else b k := by
    rw [tell_disc hb.discHeard]
    have h5 : pre.foldl (Book.hear r) b = b := by
      have := hd
      clear hd
      induction pre with
      | nil => rfl
      | cons e l ih => rw [List.foldl_cons, (this e (.head _)).1]; exact ih (fun e he => this e (.tail _ he))
    have h6 : ∀ c : Book, (∀ e ∈ pre, c.turn e = c) → pre.foldl Book.turn c = c := by
      intro c
      clear hd h5
      induction pre with
      | nil => intro _; rfl
      | cons e l ih => intro hc; rw [List.foldl_cons, hc e (.head _)]; exact ih (fun e he => hc e (.tail _ he))
    unfold Book.read
    rw [List.foldl_append, List.foldl_append, h5]
    show (pre.foldl Book.turn (fun k => if k = h then none else b k)).turn (.disconnComplete h why) = _
    rw [h6]
    · rfl
    · intro e he
      have h7 := (hd e he).2.1
      cases e with
      | roleChange s0 a0 r0 =>
        unfold Book.turn at h7 ⊢
        split
        · rename_i s1 a r0 h8
          cases h8
          funext k
          simp only at h7
          have h9 := congrFun h7 k
          by_cases hk : k = h
          · simp only [if_pos hk, Option.map_none]
          · simp only [if_neg hk]; exact h9
        · rfl
      | _ => rfl
  rw [h4]
  refine ⟨fun k => ?_, by rw [h2]; exact hb.connHeard, by rw [h2]; exact hb.discHeard, by rw [h2]; exact hb.roleHeard,
    by rw [h3]; exact hb.later⟩
  rw [h1]
  unfold bookIs
  rw [find_erase']
  by_cases hk : k = h
  · rw [if_pos hk, if_pos hk]; rfl
  · rw [if_neg hk, if_neg hk]; exact hb.book k

/-- A connection begins. -/
theorem books_begin {s s1 s' : Ctl} {b : Book} {r r' : Role} {st h now a : Nat} {out : List (Nat × Pkt)} (hi : Inv s) (hb : Booked s b)
    (hn : a ∉ peers s) (h0 : a ≠ 0) (hc : connect s now a r' = .ok h s1) (h1 : s'.acl = s1.acl) (h2 : s'.mask = s1.mask) (h3 : s'.later = s1.later) :
    Books b r (.ok st s' out ((if r' ≠ r then tell s 0x12 (.roleChange Status.success a r') else []) ++
      tell s 0x03 (.connComplete Status.success h a .acl))) := by
  rcases connect_ok (now := now) (role := r') hi hn h0 with ⟨h', last, h4, h5, h6, -⟩ | ⟨h4, -⟩
  rotate_left
  · rw [h4] at hc; cases hc
  rw [h4] at hc
  cases hc
  rw [tell_conn hb.connHeard]
  have hnone : b h = none := by
    rw [← hb.book h]
    unfold bookIs
    rw [(Conn.find_none_iff _ _).2 h5]
    rfl
  have hfree : ∀ k c, b k = some c → c.1 ≠ a := by
    intro k c hk he
    rw [← hb.book k] at hk
    unfold bookIs at hk
    rw [Option.map_eq_some_iff] at hk
    obtain ⟨d, hd, rfl⟩ := hk
    exact hn (List.mem_map.2 ⟨_, Conn.find_mem _ _ _ hd, he⟩)
  refine ⟨?_, ?_⟩
  rotate_left
  · refine ⟨fun k a' he => ?_, fun k r'' he => ?_⟩
    · rcases List.mem_append.1 he with hx | hx
      · split at hx
        · unfold tell at hx; split at hx
          · cases List.mem_singleton.1 hx
          · cases hx
        · cases hx
      · cases List.mem_singleton.1 hx
        exact ⟨hnone, h6, fun k r hk => hfree k _ hk rfl⟩
    · rcases List.mem_append.1 he with hx | hx
      · split at hx
        · unfold tell at hx; split at hx
          · cases List.mem_singleton.1 hx
          · cases hx
        · cases hx
      · cases List.mem_singleton.1 hx
  have h4 : b.read r ((if r' ≠ r then tell s 0x12 (.roleChange Status.success a r') else []) ++ [.connComplete Status.success h a .acl]) =
      fun k => if k = h then some (a, r') else b k := by
    by_cases hr : r' = r
    · rw [if_neg (fun hx => hx hr), hr]; rfl
    · rw [if_pos hr, tell_role hb.roleHeard]
      funext k
      show Option.map _ (if k = h then some (a, r) else b k) = _
      by_cases hk : k = h
      · simp only [if_pos hk, Option.map_some, if_true]
      · simp only [if_neg hk]
        cases hbk : b k with
        | none => rfl
        | some c => simp only [Option.map_some, if_neg (hfree k c hbk)]
  rw [h4]
  refine ⟨fun k => ?_, by rw [h2]; exact hb.connHeard, by rw [h2]; exact hb.discHeard, by rw [h2]; exact hb.roleHeard,
    by rw [h3]; exact hb.later⟩
  rw [h1]
  show Option.map entry (if h = k then some _ else find s.acl k) = _
  by_cases hk : k = h
  · rw [if_pos hk, if_pos hk.symm]; rfl
  · rw [if_neg hk, if_neg (Ne.symm hk)]; exact hb.book k

/-! ### Steps -/

theorem endAcl_acl {s s' : Ctl} {h a : Nat} (he : endAcl s h a = some s') :
    s'.acl = erase s.acl h ∧ s'.mask = s.mask ∧ s'.later = s.later := by
  unfold endAcl at he
  split at he
  · cases he
  · rw [Option.map_eq_some_iff] at he
    obtain ⟨lm, _, rfl⟩ := he
    exact ⟨rfl, rfl, rfl⟩

theorem books_disconnect {s : Ctl} {b : Book} {r : Role} (hi : Inv s) (hb : Booked s b) (h r1 r2 : Nat) :
    Books b r (disconnect s h r1 r2) := by
  unfold disconnect
  split
  · rename_i c hf
    exact .same hb rfl rfl rfl (dull_gone (sco_none hi hb (mem_keys (Conn.find_mem _ _ _ hf))))
  split
  · exact books_refuse hb
  rename_i c hf
  split
  · rename_i k d hk
    split
    · trivial
    · rename_i s' he
      obtain ⟨h1, h2, h3⟩ := endAcl_acl he
      exact books_end hb h1 h2 h3 _ (dull_gone (sco_none hi hb (mem_keys (scoOf_some hk).1))) (booked_known hi hb (Conn.find_mem _ _ _ hf))
  · split
    · trivial
    · rename_i s' he
      obtain ⟨h1, h2, h3⟩ := endAcl_acl he
      exact books_end (pre := []) hb h1 h2 h3 (dull_nil b) (booked_known hi hb (Conn.find_mem _ _ _ hf))

theorem books_tick {s : Ctl} {b : Book} {r : Role} (hb : Booked s b) (now : Nat) : Books b r (tick s now) := by
  rw [tick_eq]
  obtain ⟨page, h1, -⟩ := paging_same { s with later := [] } now
  obtain ⟨inq, h2⟩ := inquiring_same (paging { s with later := [] } now).1 now
  have hd : Dull b ((sendRejects s).2 ++ (paging { s with later := [] } now).2.2 ++ (inquiring (paging { s with later := [] } now).1 now).2.2) := by
    refine (Dull.append ?_ ?_).append ?_
    · intro e he
      obtain ⟨x, hx, hm⟩ := List.mem_flatMap.1 he
      exact dull_tell (by simp [Ev.dull, hb.later x hx]) e hm
    · unfold paging
      split
      · exact dull_nil b
      split
      · exact dull_one rfl
      split <;> exact dull_nil b
    · unfold inquiring
      split
      · exact dull_nil b
      split
      · exact dull_tell rfl
      split <;> exact dull_nil b
  refine ⟨?_, hd.news⟩
  rw [hd.read, h2, h1]
  exact ⟨hb.book, hb.connHeard, hb.discHeard, hb.roleHeard, nofun⟩

theorem books_check {s : Ctl} {b : Book} {r : Role} (hi : Inv s) (hb : Booked s b) (now h : Nat) : Books b r (checkExpiring s now h) := by
  unfold checkExpiring
  split
  · exact .same hb rfl rfl rfl (dull_nil b)
  split
  · exact books_disconnect hi hb _ _ _
  split <;> exact .same hb rfl rfl rfl (dull_nil b)

theorem books_accept {s : Ctl} {b : Book} (hi : Inv s) (hb : Booked s b) (now a : Nat) (t : Bool) :
    Books b .peripheral (acceptConnection s now a t) := by
  unfold acceptConnection
  split
  · rename_i p hp
    unfold acceptPage
    split
    · exact .same hb rfl rfl rfl (dull_nil b)
    rename_i hn
    split
    · trivial
    · trivial
    rename_i k s1 hc
    have hn' : p.addr ∉ peers s := fun hx => hn (aclOf_isSome.2 hx)
    have := books_begin (r := .peripheral) (st := Status.success) (hi := hi) (out := [(p.addr, .pageRsp t)])
      (s' := { s1 with scan := none, page := if s.page.any (fun q => q.addr = p.addr) then none else s.page }) hb hn' (hi.scan p (Option.filter_eq_some_iff.1 hp).1) hc rfl rfl rfl
    have he : (if acceptorRole t p.allow ≠ .peripheral then tell s 0x12 (.roleChange Status.success p.addr (acceptorRole t p.allow)) else []) =
        (if acceptorRole t p.allow = .central then tell s 0x12 (.roleChange Status.success p.addr .central) else []) := by
      cases acceptorRole t p.allow <;> rfl
    rw [he] at this
    exact this
  · split
    · split
      · trivial
      · exact .same hb rfl rfl rfl (dull_tell (by simp [Ev.dull]))
    · exact books_refuse hb

theorem books_setup {s : Ctl} {b : Book} {r : Role} (hb : Booked s b) (h : Nat) (p : Sco.ConnParams) (sp lg : Bool) :
    Books b r (setupSync s h p sp lg) := by
  unfold setupSync
  split
  · exact books_refuse hb
  split
  · exact books_refuse hb
  split
  · trivial
  · rename_i s' hs
    unfold createSyn at hs
    split at hs
    · cases hs
    · cases hs; exact .same hb rfl rfl rfl (dull_nil b)

theorem books_ask {s : Ctl} {b : Book} {r : Role} (hb : Booked s b) (h : Nat) (q : Pkt) : Books b r (ask s h q) := by
  unfold ask
  split
  · exact books_refuse hb
  · exact .same hb rfl rfl rfl (dull_nil b)

theorem books_command {s : Ctl} {b : Book} (hi : Inv s) (hb : Booked s b) (now : Nat) (c : Cmd) (hf : Frank (.cmd c)) (hr : c ≠ .reset)
    (r : Role) (ha : ∀ a t, c = .accept a t → r = .peripheral) : Books b r (command s now c) := by
  cases c with
  | reset => exact absurd rfl hr
  | accept a t => rw [ha a t rfl]; exact books_accept hi hb now a t
  | disconnect h r => exact books_disconnect hi hb _ _ _
  | setupSync h p sp => exact books_setup hb _ _ _ _
  | addSco h t => exact books_setup hb _ _ _ _
  | features h => exact books_ask hb _ _
  | ext h p => exact books_ask hb _ _
  | version h => exact books_ask hb _ _
  | inquiry l n r =>
    show Books b _ (startInquiry s now l n r)
    unfold startInquiry
    repeat' split
    all_goals first | exact books_refuse hb | exact .same hb rfl rfl rfl (dull_nil b)
  | inquiryCancel =>
    show Books b _ (cancelInquiry s)
    unfold cancelInquiry
    split
    · exact books_refuse hb
    · exact .same hb rfl rfl rfl (dull_nil b)
  | create a w =>
    show Books b _ (createConnection s now a w)
    unfold createConnection
    repeat' split
    all_goals first | exact books_refuse hb | exact .same hb rfl rfl rfl (dull_nil b)
  | cancel a =>
    show Books b _ (cancelConnection s a)
    unfold cancelConnection
    repeat' split
    all_goals first | exact books_refuse hb | exact .same hb rfl rfl rfl (dull_tell rfl)
  | reject a r =>
    show Books b _ (rejectConnection s a r)
    unfold rejectConnection
    split
    · refine ⟨?_, (dull_nil b).news⟩
      rw [(dull_nil b).read]
      exact ⟨hb.book, hb.connHeard, hb.discHeard, hb.roleHeard, fun x hx => (List.mem_append.1 hx).elim (hb.later x)
        (fun h => by rw [List.mem_singleton.1 h]; exact hf)⟩
    · exact books_refuse hb
  | switchRole a r =>
    show Books b _ (switchRole s a r)
    unfold switchRole
    repeat' split
    all_goals first | exact books_refuse hb | exact .same hb rfl rfl rfl (dull_nil b) | exact .same hb rfl rfl rfl (dull_tell rfl)
  | writePolicy h p =>
    show Books b _ (writePolicy s h p)
    unfold writePolicy
    split
    · exact books_refuse hb
    split
    · exact books_refuse hb
    · rename_i c hc _
      refine ⟨?_, (dull_nil b).news⟩
      rw [(dull_nil b).read]
      exact ⟨fun k => by rw [← hb.book k]; exact congrFun (bookIs_update (d := { c with policy := p }) hi (Conn.find_mem _ _ _ hc) rfl) k, hb.connHeard, hb.discHeard, hb.roleHeard, hb.later⟩
  | writeDefaultPolicy p =>
    show Books b _ (writeDefaultPolicy s p)
    unfold writeDefaultPolicy
    split
    · exact books_refuse hb
    · exact .same hb rfl rfl rfl (dull_nil b)
  | acceptSync a p =>
    show Books b _ (acceptSync s a p)
    unfold acceptSync
    split
    · split
      · trivial
      · refine .same hb rfl rfl rfl (dull_one ?_)
        unfold syncEvent; split <;> rfl
    · exact books_refuse hb
  | rejectSync a r =>
    show Books b _ (rejectSync s a r)
    unfold rejectSync
    split
    · split
      · trivial
      · exact .same hb rfl rfl rfl (dull_one rfl)
    · exact books_refuse hb
  | setMask m =>
    refine ⟨?_, (dull_nil b).news⟩
    rw [(dull_nil b).read]
    exact ⟨hb.book, hf.1, hf.2.1, hf.2.2, hb.later⟩
  | extLocal p =>
    show Books b _ (match lmpFeatures s.info p with | none => .wild | some _ => .ok Status.success s [] [])
    split
    · trivial
    · exact .same hb rfl rfl rfl (dull_nil b)
  | acl h pb bc d =>
    show Books b _ (sendAcl s h pb bc d)
    unfold sendAcl
    split
    · trivial
    split <;> exact .same hb rfl rfl rfl (dull_one rfl)
  | sco h d =>
    show Books b _ (sendSco s h d)
    unfold sendSco
    split
    · exact books_refuse hb
    · exact .same hb rfl rfl rfl (dull_nil b)
  | writeScanEnable i p => exact .same hb rfl rfl rfl (dull_nil b)
  | writePageTimeout t => exact .same hb rfl rfl rfl (dull_nil b)
  | writeIac l => exact .same hb rfl rfl rfl (dull_nil b)
  | writeInquiryMode m => exact .same hb rfl rfl rfl (dull_nil b)
  | setInfo i => exact .same hb rfl rfl rfl (dull_nil b)
  | name a => exact .same hb rfl rfl rfl (dull_nil b)

theorem books_report {s : Ctl} {b : Book} {r : Role} (hb : Booked s b) (src code : Nat) (e : Nat → Ev) (he : ∀ h, (e h).dull = true) :
    Books b r (report s src code e) := by
  unfold report
  split
  · exact .same hb rfl rfl rfl (dull_nil b)
  · exact .same hb rfl rfl rfl (dull_tell (he _))

theorem books_role {s : Ctl} {b : Book} {r : Role} {st src h : Nat} {c : Acl} {out : List (Nat × Pkt)} (hi : Inv s) (hb : Booked s b)
    (hc : aclOf s src = some (h, c)) (q : Role) :
    Books b r (.ok st { s with acl := update s.acl h { c with role := q } } out (tell s 0x12 (.roleChange Status.success src q))) := by
  rw [tell_role hb.roleHeard]
  refine ⟨?_, ⟨fun k a he => (by cases List.mem_singleton.1 he), fun k a he => (by cases List.mem_singleton.1 he)⟩⟩
  refine ⟨fun k => ?_, hb.connHeard, hb.discHeard, hb.roleHeard, hb.later⟩
  show bookIs (update s.acl h { c with role := q }) k = _
  rw [bookIs_role hi hc, hb.book k]
  rfl

theorem books_dispatch {s : Ctl} {b : Book} (hi : Inv s) (hb : Booked s b) (now src dst rssi : Nat) (p : Pkt)
    (hf : Frank (.packet src dst rssi p)) : Books b .central (dispatch s now src rssi p) := by
  cases p with
  | page cod w =>
    show Books b _ (onPage s src cod w)
    unfold onPage
    repeat' split
    all_goals first | exact .same hb rfl rfl rfl (dull_nil b) | exact .same hb rfl rfl rfl (dull_one rfl)
  | pageRsp t =>
    show Books b _ (onPageRsp s now src t)
    unfold onPageRsp
    split
    · exact .same hb rfl rfl rfl (dull_nil b)
    rename_i p hp
    split
    · exact .same hb rfl rfl rfl (dull_nil b)
    rename_i hs
    have hs : p.addr = src := Classical.not_not.1 hs
    split
    · trivial
    · trivial
    rename_i k s1 hc
    have hn : src ∉ peers s := hs ▸ (hi.page p hp).1
    have := books_begin (r := .central) (st := 0) (out := []) (s' := { s1 with page := none }) hi hb hn (hs ▸ (hi.page p hp).2) hc rfl rfl rfl
    have he : (if pagerRole p.allow t ≠ .central then tell s 0x12 (.roleChange Status.success src (pagerRole p.allow t)) else []) =
        (if pagerRole p.allow t = .peripheral then tell s 0x12 (.roleChange Status.success src .peripheral) else []) := by
      cases pagerRole p.allow t <;> rfl
    rw [he] at this
    exact this
  | pageReject r =>
    show Books b _ (onPageReject s src r)
    unfold onPageReject
    split
    · exact .same hb rfl rfl rfl (dull_nil b)
    split
    · exact .same hb rfl rfl rfl (dull_nil b)
    · exact .same hb rfl rfl rfl (dull_tell (by simp only [Ev.dull, Bool.or_eq_true, bne_iff_ne]; exact .inl hf))
  | disconnect r =>
    show Books b _ (onDisconnect s src r)
    unfold onDisconnect
    split
    · exact .same hb rfl rfl rfl (dull_nil b)
    rename_i h c hc
    split
    · trivial
    · rename_i s' he
      obtain ⟨h1, h2, h3⟩ := endAcl_acl he
      exact books_end (pre := []) hb h1 h2 h3 (dull_nil b) (booked_known hi hb (aclOf_some hc).1)
  | roleReq =>
    show Books b _ (onRoleReq s src)
    unfold onRoleReq
    split
    · exact .same hb rfl rfl rfl (dull_nil b)
    rename_i h c hc
    split
    · exact .same hb rfl rfl rfl (dull_nil b)
    · exact books_role hi hb hc _
  | roleRsp st =>
    show Books b _ (onRoleRsp s src st)
    unfold onRoleRsp
    split
    · exact .same hb rfl rfl rfl (dull_nil b)
    rename_i h c hc
    split
    · rename_i hst
      exact .same hb rfl rfl rfl (dull_tell (by simp only [Ev.dull, bne_iff_ne]; exact hst))
    · rename_i hst
      have hst : st = Status.success := Classical.not_not.1 hst
      rw [hst]
      exact books_role hi hb hc _
  | scoReq p cod =>
    show Books b _ (onScoReq s src p cod)
    unfold onScoReq
    split
    · exact .same hb rfl rfl rfl (dull_nil b)
    split
    · trivial
    · rename_i s' hs
      unfold createSyn at hs
      split at hs
      · cases hs
      · cases hs; exact .same hb rfl rfl rfl (dull_one rfl)
  | scoRsp st l =>
    show Books b _ (onScoRsp s src st l)
    unfold onScoRsp
    split
    · exact .same hb rfl rfl rfl (dull_nil b)
    rename_i h c hc
    split
    · split
      · trivial
      · refine .same hb rfl rfl rfl (dull_one ?_)
        split
        · rfl
        · unfold syncEvent; split <;> rfl
    · split
      · trivial
      · refine .same hb rfl rfl rfl (dull_one ?_)
        split
        · simp [Ev.dull]
        · rfl
  | scoDisc r =>
    show Books b _ (onScoDisc s src r)
    unfold onScoDisc
    split
    · exact .same hb rfl rfl rfl (dull_nil b)
    · rename_i h c hc
      exact .same hb rfl rfl rfl (dull_gone (sco_none hi hb (mem_keys (scoOf_some hc).1)))
  | lmp ok =>
    show Books b _ (if ok then .ok 0 s [] [] else .abort)
    split
    · exact .same hb rfl rfl rfl (dull_nil b)
    · trivial
  | inquiry t lap =>
    show Books b _ (onInquiry s src t lap rssi)
    unfold onInquiry
    repeat' split
    all_goals exact .same hb rfl rfl rfl (dull_nil b)
  | inqRsp t cod r eir =>
    show Books b _ (onInqRsp s src t cod r eir)
    unfold onInqRsp
    repeat' split
    all_goals first | exact .same hb rfl rfl rfl (dull_nil b) | exact .same hb rfl rfl rfl (dull_one rfl) | exact .same hb rfl rfl rfl (dull_tell rfl)
  | acl pb bc d =>
    show Books b _ (onAcl s src pb bc d)
    unfold onAcl
    split
    · exact .same hb rfl rfl rfl (dull_nil b)
    · exact .same hb rfl rfl rfl (dull_one rfl)
  | sco d =>
    show Books b _ (onSco s src d)
    unfold onSco
    split
    · exact .same hb rfl rfl rfl (dull_nil b)
    · exact .same hb rfl rfl rfl (dull_one rfl)
  | featuresRsp f => exact books_report hb _ _ _ (fun _ => rfl)
  | extRsp st p m f => exact books_report hb _ _ _ (fun _ => rfl)
  | versionRsp v sub c => exact books_report hb _ _ _ (fun _ => rfl)
  | extReq p =>
    show Books b _ (onExtReq s src p)
    unfold onExtReq
    split
    · trivial
    · exact .same hb rfl rfl rfl (dull_nil b)
  | nameRsp n => exact .same hb rfl rfl rfl (dull_tell rfl)
  | hostFeaturesRsp f => exact .same hb rfl rfl rfl (dull_tell rfl)
  | ping => exact .same hb rfl rfl rfl (dull_nil b)
  | pong => exact .same hb rfl rfl rfl (dull_nil b)
  | nameReq => exact .same hb rfl rfl rfl (dull_nil b)
  | hostFeaturesReq => exact .same hb rfl rfl rfl (dull_nil b)
  | featuresReq => exact .same hb rfl rfl rfl (dull_nil b)
  | versionReq => exact .same hb rfl rfl rfl (dull_nil b)

theorem booked_touch {s : Ctl} {b : Book} (hi : Inv s) (hb : Booked s b) (now src : Nat) : Booked (touch s now src) b := by
  have h1 := bookIs_touch hi now src
  have h2 := touch_eq s now src
  refine ⟨fun k => by rw [h1]; exact hb.book k, ?_, ?_, ?_, ?_⟩ <;> rw [h2]
  · exact hb.connHeard
  · exact hb.discHeard
  · exact hb.roleHeard
  · exact hb.later

theorem mask0 : Nat.testBit 0x1fffffffffff 2 = true ∧ Nat.testBit 0x1fffffffffff 4 = true ∧ Nat.testBit 0x1fffffffffff 17 = true := by decide

theorem booked_fresh (addr : Nat) (i : Info) (n : Nat) : Booked (Ctl.fresh addr i n) .empty :=
  ⟨fun _ => rfl, mask0.1, mask0.2.1, mask0.2.2, nofun⟩

theorem booked_step {s s' : Ctl} {b : Book} {now : Nat} {x : Act} {st : Nat} {out : List (Nat × Pkt)} {ev : List Ev} (hi : Inv s)
    (hb : Booked s b) (hf : Frank x) (h : step s now x = .ok st s' out ev) : Booked s' (b.note ⟨now, x, st, out, ev⟩) ∧ News b ev := by
  by_cases hr : x = .cmd .reset
  · subst hr
    cases h
    exact ⟨⟨fun _ => rfl, mask0.1, mask0.2.1, mask0.2.2, hb.later⟩, (dull_nil b).news⟩
  · rw [note_eq hr]
    have hk : Books b (if accepting x then .peripheral else .central) (step s now x) := by
      cases x with
      | cmd c => exact books_command hi hb now c hf (fun hc => hr (by rw [hc])) _ (fun a t ha => by rw [ha]; rfl)
      | tick => exact books_tick hb now
      | check h' => exact books_check hi hb now h'
      | packet src dst rssi p =>
        show Books b .central (incoming s now src dst rssi p)
        unfold incoming
        split
        · exact .same hb rfl rfl rfl (dull_nil b)
        · exact books_dispatch (touch_inv hi now src).1 (booked_touch hi hb now src) now src dst rssi p hf
    rw [h] at hk
    exact hk

theorem booked_run {s : Ctl} {b : Book} (hi : Inv s) (hb : Booked s b) (as : List (Nat × Act)) (hx : ∀ x ∈ as, Named x.2 ∧ Frank x.2)
    (s' : Ctl) (l : List Seen) (h : run s as = some (s', l)) : Inv s' ∧ Booked s' (l.foldl Book.note b) := by
  induction as generalizing s b l with
  | nil => cases h; exact ⟨hi, hb⟩
  | cons x as ih =>
    obtain ⟨now, a⟩ := x
    simp only [run] at h
    have hfit := fits hi now a (hx _ (.head _)).1
    split at h
    · rename_i st s1 out ev hs
      rw [hs] at hfit
      rw [Option.map_eq_some_iff] at h
      obtain ⟨⟨s2, l2⟩, h2, h3⟩ := h
      cases h3
      exact ih hfit.1 (booked_step hi hb (hx _ (.head _)).2 hs).1 (fun y hy => hx y (.tail _ hy)) l2 h2
    · cases h

end Verif.Br
