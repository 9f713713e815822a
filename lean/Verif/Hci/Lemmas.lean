import Verif.Hci.Spec
/-!
# All the ways a handler can run -/
namespace Verif.Hci

mutual
/-- The answers and the end of a well-formed command `op`, for every choice of the branches. A loop is run at
most once; `quiet` makes sure that this is enough. -/
def ways (op : Nat) : List Stmt → List (List Ev × Flow)
  | [] => [([], .fell)]
  | s :: l => (ways1 op s).flatMap (fun r =>
      if r.2 = .fell then (ways op l).map (fun q => (r.1 ++ q.1, q.2)) else [r])
def ways1 (op : Nat) : Stmt → List (List Ev × Flow)
  | .check o => if o = op then [([], .fell)] else [([], .over .invalid)]
  | .complete o => [([.complete o], .fell)]
  | .status o => [([.status o], .fell)]
  | .event _ => [([], .fell)]
  | .later => [([], .fell)]
  | .toLm => if lmCommands.contains op then [([.lm], .fell)] else [([], .over .crash)]
  | .toLl => if llCommands.contains op then [([.ll], .fell)] else [([], .over .crash)]
  | .invalid => [([], .over .invalid)]
  | .fatal => [([], .over .crash)]
  | .csr => []
  | .ite a b => ways op a ++ ways op b
  | .loop a => ([], .fell) :: ways op a
  | .ret => [([], .returned)]
end

mutual
/-- There is no CSR command, and no loop that answers and goes on. -/
def quiet (op : Nat) : List Stmt → Bool
  | [] => true
  | s :: l => quiet1 op s && quiet op l
def quiet1 (op : Nat) : Stmt → Bool
  | .csr => false
  | .ite a b => quiet op a && quiet op b
  | .loop a => quiet op a && (ways op a).all (fun r => r.2 ≠ .fell || r.1 = [])
  | _ => true
end

theorem ways_cons {op : Nat} {s : Stmt} {l : List Stmt} {e1 e2 : List Ev} {f : Flow}
    (h1 : (e1, Flow.fell) ∈ ways1 op s) (h2 : (e2, f) ∈ ways op l) : (e1 ++ e2, f) ∈ ways op (s :: l) := by
  simp only [ways, List.mem_flatMap]
  refine ⟨(e1, .fell), h1, ?_⟩
  simp only [if_true, List.mem_map]
  exact ⟨(e2, f), h2, rfl⟩

theorem ways_out {op : Nat} {s : Stmt} {l : List Stmt} {e1 : List Ev} {f : Flow}
    (h1 : (e1, f) ∈ ways1 op s) (hf : f ≠ .fell) : (e1, f) ∈ ways op (s :: l) := by
  simp only [ways, List.mem_flatMap]
  refine ⟨(e1, f), h1, ?_⟩
  simp [hf]

/-- Every run is one of the ways. -/
theorem run_ways {c : Cfg} {m : Cmd} (hm : m.formed = true) {l : List Stmt} {ev : List Ev} {f : Flow} (h : Run c m l ev f) :
    quiet m.op l = true → (ev.filter isAnswer, f) ∈ ways m.op l := by
  induction h with
  | nil => intro _; simp [ways]
  | @check o l ev f h1 h2 _ ih =>
    intro q
    simp only [quiet, Bool.and_eq_true] at q
    exact ways_cons (e1 := []) (by simp [ways1, h2]) (ih q.2)
  | @refused o l hn =>
    intro _
    have : o ≠ m.op := fun e => hn ⟨hm, e⟩
    exact ways_out (by simp [ways1, this, isAnswer]) (by simp)
  | complete _ ih =>
    intro q
    simp only [quiet, Bool.and_eq_true] at q
    exact ways_cons (e1 := [_]) (by simp [ways1]) (ih q.2)
  | status _ ih =>
    intro q
    simp only [quiet, Bool.and_eq_true] at q
    exact ways_cons (e1 := [_]) (by simp [ways1]) (ih q.2)
  | event _ ih =>
    intro q
    simp only [quiet, Bool.and_eq_true] at q
    exact ways_cons (e1 := []) (by simp [ways1]) (ih q.2)
  | later _ ih =>
    intro q
    simp only [quiet, Bool.and_eq_true] at q
    exact ways_cons (e1 := []) (by simp [ways1]) (ih q.2)
  | toLm _ h2 _ ih =>
    intro q
    simp only [quiet, Bool.and_eq_true] at q
    exact ways_cons (e1 := [.lm]) (by simp [ways1, h2]) (ih q.2)
  | toLmFails hn =>
    intro _
    have : ¬m.op ∈ lmCommands := fun e => hn ⟨hm, e⟩
    exact ways_out (by simp [ways1, this]) (by simp)
  | toLl _ h2 _ ih =>
    intro q
    simp only [quiet, Bool.and_eq_true] at q
    exact ways_cons (e1 := [.ll]) (by simp [ways1, h2]) (ih q.2)
  | toLlFails hn =>
    intro _
    have : ¬m.op ∈ llCommands := fun e => hn ⟨hm, e⟩
    exact ways_out (by simp [ways1, this]) (by simp)
  | invalid => intro _; exact ways_out (by simp [ways1]) (by simp)
  | fatal => intro _; exact ways_out (by simp [ways1]) (by simp)
  | csrUnknown => intro q; simp [quiet, quiet1] at q
  | csrAnswer => intro q; simp [quiet, quiet1] at q
  | csrCrash => intro q; simp [quiet, quiet1] at q
  | ret => intro _; exact ways_out (by simp [ways1]) (by simp)
  | left _ _ ih1 ih2 =>
    intro q
    simp only [quiet, quiet1, Bool.and_eq_true] at q
    rw [List.filter_append]
    exact ways_cons (by simp only [ways1, List.mem_append]; exact .inl (ih1 q.1.1)) (ih2 q.2)
  | leftOut _ hf ih =>
    intro q
    simp only [quiet, quiet1, Bool.and_eq_true] at q
    exact ways_out (by simp only [ways1, List.mem_append]; exact .inl (ih q.1.1)) hf
  | right _ _ ih1 ih2 =>
    intro q
    simp only [quiet, quiet1, Bool.and_eq_true] at q
    rw [List.filter_append]
    exact ways_cons (by simp only [ways1, List.mem_append]; exact .inr (ih1 q.1.2)) (ih2 q.2)
  | rightOut _ hf ih =>
    intro q
    simp only [quiet, quiet1, Bool.and_eq_true] at q
    exact ways_out (by simp only [ways1, List.mem_append]; exact .inr (ih q.1.2)) hf
  | skip _ ih =>
    intro q
    simp only [quiet, Bool.and_eq_true] at q
    exact ways_cons (e1 := []) (by simp [ways1]) (ih q.2)
  | again _ _ ih1 ih2 =>
    intro q
    have q0 := q
    simp only [quiet, quiet1, Bool.and_eq_true, List.all_eq_true] at q
    have h1 := ih1 q.1.1
    have h2 := q.1.2 _ h1
    simp at h2
    rw [List.filter_append, List.filter_eq_nil_iff.mpr (by simpa using h2), List.nil_append]
    exact ih2 q0
  | loopOut _ hf ih =>
    intro q
    simp only [quiet, quiet1, Bool.and_eq_true] at q
    exact ways_out (by simp only [ways1, List.mem_cons]; exact .inr (ih q.1.1)) hf

theorem lookup_mem {α β : Type} [BEq α] [LawfulBEq α] {l : List (α × β)} {a : α} {b : β} (h : l.lookup a = some b) : (a, b) ∈ l := by
  induction l with
  | nil => simp at h
  | cons x l ih =>
    rw [List.lookup_cons] at h
    split at h
    · rename_i e
      have := eq_of_beq e
      cases h
      rw [this]
      exact List.mem_cons_self
    · exact List.mem_cons_of_mem _ (ih h)

/-- A property of the whole table of handlers. -/
theorem handlers_all {P : Nat → List Stmt → Bool} (h : handlers.all (fun r => P r.1 r.2) = true) {op : Nat} {l : List Stmt}
    (hl : handlers.lookup op = some l) : P op l = true := by
  rw [List.all_eq_true] at h
  exact h _ (lookup_mem hl)

theorem through_iff (op : Nat) :
    throughLoopback op = true ↔ op ∈ [0x0c03, 0x0c31, 0x0c33, 0x0c35, 0x1005, 0x1801, 0x1802] := by
  simp [throughLoopback, or_assoc]

end Verif.Hci
