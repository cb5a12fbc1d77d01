import Verif.Model.ConcurrentDecode
import Verif.Proofs.ConcurrentHeap
/-
Helper lemmas for threads that decode at the same time: one thread alone does what `hdecode` does.
-/
namespace FinProto

/-- `k` steps of a decoding thread alone. -/
def DThread.go (sup : Suppliers) (n : Nat) : Nat → Heap × DThread → Heap × DThread
  | 0, p => p
  | k + 1, p => DThread.go sup n k (p.2.step sup n p.1)

theorem DThread.go_add (sup : Suppliers) (n : Nat) (k l : Nat) : ∀ p, DThread.go sup n (k + l) p = DThread.go sup n l (DThread.go sup n k p) := by
  induction k with
  | zero => intro p; rw [Nat.zero_add]; rfl
  | succ k ih =>
    intro p
    rw [show k + 1 + l = (k + l) + 1 by omega, DThread.go, ih]
    rfl

theorem DThread.go_succ (sup : Suppliers) (n : Nat) (k : Nat) (p : Heap × DThread) :
    DThread.go sup n (k + 1) p = (DThread.go sup n k p).2.step sup n (DThread.go sup n k p).1 := by
  rw [DThread.go_add]; rfl

theorem DThread.step_done (sup : Suppliers) (n : Nat) (h : Heap) (t : DThread) (hd : t.err ≠ none ∨ t.stack = []) : t.step sup n h = (h, t) := by
  unfold DThread.step
  split
  · rename_i a as he hs
    rcases hd with hd | hd
    · exact absurd he hd
    · rw [hs] at hd; cases hd
  · rfl

theorem DThread.go_done (sup : Suppliers) (n : Nat) (p : Heap × DThread) (hd : p.2.err ≠ none ∨ p.2.stack = []) : ∀ k, DThread.go sup n k p = p
  | 0 => rfl
  | k + 1 => by
    rw [DThread.go, DThread.step_done sup n _ _ hd]
    exact DThread.go_done sup n p hd k

/-- In some number of steps the thread gets from `p` to a state with heap `h'`, buffer `b'` and exception `e'`, and if there is none, with these
calls in progress. -/
def DGets (sup : Suppliers) (n : Nat) (p : Heap × DThread) (h' : Heap) (b' : RBuf) (e' : Option JErr) (as : List DActivation) : Prop :=
  ∃ k, (DThread.go sup n k p).1 = h' ∧ (DThread.go sup n k p).2.buf = b' ∧ (DThread.go sup n k p).2.err = e' ∧
    (e' = none → (DThread.go sup n k p).2.stack = as)

section
variable {sup : Suppliers} {n : Nat}

theorem DGets.now (h : Heap) (t : DThread) {b : RBuf} {e : Option JErr} {as : List DActivation} (hb : t.buf = b)
    (he : t.err = e) (hs : e = none → t.stack = as) : DGets sup n (h, t) h b e as :=
  ⟨0, rfl, hb, he, hs⟩

theorem DGets.step {p : Heap × DThread} {h' : Heap} {b' : RBuf} {e' : Option JErr} {as : List DActivation}
    (h : DGets sup n (p.2.step sup n p.1) h' b' e' as) : DGets sup n p h' b' e' as := by
  obtain ⟨k, hk⟩ := h
  exact ⟨k + 1, hk⟩

/-- Go on after a part that has ended without exception. -/
theorem DGets.then {p : Heap × DThread} {h1 h2 : Heap} {b1 b2 : RBuf} {e2 : Option JErr} {as1 as2 : List DActivation}
    (h : DGets sup n p h1 b1 none as1) (h' : DGets sup n (h1, ⟨as1, b1, none⟩) h2 b2 e2 as2) : DGets sup n p h2 b2 e2 as2 := by
  obtain ⟨k, k1, k2, k3, k4⟩ := h
  obtain ⟨l, hl⟩ := h'
  have : DThread.go sup n k p = (h1, ⟨as1, b1, none⟩) := by
    rw [← k1, ← k2, ← k3, ← k4 rfl]
  refine ⟨k + l, ?_⟩
  rw [DThread.go_add, this]
  exact hl

theorem DGets.fail {p : Heap × DThread} {h1 : Heap} {b1 : RBuf} {e : JErr} {as1 as2 : List DActivation}
    (h : DGets sup n p h1 b1 (some e) as1) : DGets sup n p h1 b1 (some e) as2 := by
  obtain ⟨k, k1, k2, k3, -⟩ := h
  exact ⟨k, k1, k2, k3, fun h => by cases h⟩

/-- Calls at depth `m` do what `call` says. -/
def DCallGets (sup : Suppliers) (n m : Nat) (call : HDecCall) : Prop := ∀ r h as b, as.length + m = n →
  DGets sup n (h, DThread.enter n r h ⟨as, b, none⟩) (call r h b).1 (call r h b).2.1 (call r h b).2.2 as

variable {m : Nat} {call : HDecCall} (hc : DCallGets sup n m call)
include hc

theorem dgets_elem (r : Nat) (c : Cls) (f : Nat) (el : DecElem) (ss : List DecStmt) (as : List DActivation) (hn : as.length + 1 + m = n) (k : Nat)
    (h : Heap) (b : RBuf) :
    DGets sup n (h, ⟨⟨r, c, ss, some (f, el, k + 1, none)⟩ :: as, b, none⟩) (hdecElem call r f el h b).1 (hdecElem call r f el h b).2.1
      (hdecElem call r f el h b).2.2 (⟨r, c, ss, some (f, el, k, none)⟩ :: as) := by
  refine DGets.step ?_
  simp only [DThread.step, DThread.iterate]
  cases el with
  | obj d =>
    have one := hc h.length (h ++ [newMsg d]) (⟨r, c, ss, some (f, .obj d, k, some h.length)⟩ :: as) b (by simpa using hn)
    simp only [hdecElem]
    revert one
    rcases call h.length (h ++ [newMsg d]) b with ⟨h', b', _ | e⟩ <;> intro one
    · exact one.then (DGets.step (DGets.now _ _ rfl rfl (fun _ => rfl)))
    · exact one.fail
  | _ => exact DGets.now _ _ rfl rfl (fun _ => rfl)

theorem dgets_elems (r : Nat) (c : Cls) (f : Nat) (el : DecElem) (ss : List DecStmt) (as : List DActivation) (hn : as.length + 1 + m = n) (k : Nat) :
    ∀ (h : Heap) (b : RBuf),
    DGets sup n (h, ⟨⟨r, c, ss, some (f, el, k, none)⟩ :: as, b, none⟩) (hdecElems call r f el k h b).1 (hdecElems call r f el k h b).2.1
      (hdecElems call r f el k h b).2.2 (⟨r, c, ss, none⟩ :: as) := by
  induction k with
  | zero => intro h b; exact DGets.step (DGets.now _ _ rfl rfl (fun _ => rfl))
  | succ k ih =>
    intro h b
    have one := dgets_elem hc r c f el ss as hn k h b
    simp only [hdecElems]
    revert one
    rcases hdecElem call r f el h b with ⟨h', b', _ | e⟩ <;> intro one
    · exact one.then (ih h' b')
    · exact one.fail

theorem dgets_field (r : Nat) (c : Cls) (f : Nat) (ss : List DecStmt) (as : List DActivation) (hn : as.length + 1 + m = n) (h : Heap) (b : RBuf) :
    DGets sup n (h, DThread.enterField n r f h ⟨⟨r, c, ss, none⟩ :: as, b, none⟩) (hcallField call r f ⟨h, b⟩).1.h (hcallField call r f ⟨h, b⟩).1.buf
      (hcallField call r f ⟨h, b⟩).2 (⟨r, c, ss, none⟩ :: as) := by
  simp only [DThread.enterField, hcallField]
  rcases h.field r f with _ | _ | _ | _ | a
  · exact DGets.now _ _ rfl rfl (fun h => by cases h)
  · exact DGets.now _ _ rfl rfl (fun h => by cases h)
  · exact DGets.now _ _ rfl rfl (fun h => by cases h)
  · exact DGets.now _ _ rfl rfl (fun h => by cases h)
  · dsimp only
    rcases h[a]? with _ | _ | _
    · exact DGets.now _ _ rfl rfl (fun h => by cases h)
    · exact hc a h (⟨r, c, ss, none⟩ :: as) b (by simpa using hn)
    · exact DGets.now _ _ rfl rfl (fun h => by cases h)

theorem dgets_stmt (r : Nat) (c : Cls) (s : DecStmt) (ss : List DecStmt) (as : List DActivation) (hn : as.length + 1 + m = n) (st : HDecSt) :
    DGets sup n (st.h, ⟨⟨r, c, s :: ss, none⟩ :: as, st.buf, none⟩) (hdecStmt sup call r ((decl c).fields.map (·.2)) s st).1.h
      (hdecStmt sup call r ((decl c).fields.map (·.2)) s st).1.buf (hdecStmt sup call r ((decl c).fields.map (·.2)) s st).2
      (⟨r, c, ss, none⟩ :: as) := by
  refine DGets.step ?_
  obtain ⟨h, b⟩ := st
  simp only [DThread.step]
  cases s with
  | list f t e el =>
    simp only [DThread.exec, hdecStmt]
    rcases b.readNum e t with ⟨b', err | k⟩
    · exact DGets.now _ _ rfl rfl (fun h => by cases h)
    · dsimp only
      by_cases hk : 0 < k.bits.toInt
      · rw [if_pos hk, if_pos hk]
        exact dgets_elems hc r c f el ss as hn _ _ _
      · rw [if_neg hk, if_neg hk]
        exact DGets.now _ _ rfl rfl (fun _ => rfl)
  | obj f d =>
    simp only [DThread.exec, hdecStmt]
    rcases h.field r f with _ | _ | _ | _ | _ <;> exact DGets.step (dgets_field hc r c f ss as hn _ _)
  | call f =>
    simp only [DThread.exec, hdecStmt]
    exact dgets_field hc r c f ss as hn _ _
  | _ => exact DGets.now _ _ rfl rfl (fun _ => rfl)

theorem dgets_stmts (r : Nat) (c : Cls) (as : List DActivation) (hn : as.length + 1 + m = n) (ss : List DecStmt) : ∀ (st : HDecSt),
    DGets sup n (st.h, ⟨⟨r, c, ss, none⟩ :: as, st.buf, none⟩) (hdecStmts sup call r ((decl c).fields.map (·.2)) ss st).1.h
      (hdecStmts sup call r ((decl c).fields.map (·.2)) ss st).1.buf (hdecStmts sup call r ((decl c).fields.map (·.2)) ss st).2 as := by
  induction ss with
  | nil => intro st; exact DGets.step (DGets.now _ _ rfl rfl (fun _ => rfl))
  | cons s ss ih =>
    intro st
    have one := dgets_stmt hc r c s ss as hn st
    simp only [hdecStmts]
    generalize hdecStmt sup call r _ s st = o at one ⊢
    obtain ⟨st', _ | e⟩ := o
    · exact one.then (ih st')
    · exact one.fail
end

theorem dgets_hdecode (sup : Suppliers) (n : Nat) : ∀ m, DCallGets sup n m (hdecode sup m) := by
  intro m
  induction m with
  | zero =>
    intro r h as b hn
    have hlt : ¬ as.length < n := by omega
    simp only [DThread.enter, hlt, if_false, hdecode]
    exact DGets.now _ _ rfl rfl (fun h => by cases h)
  | succ m ih =>
    intro r h as b hn
    have hlt : as.length < n := by omega
    simp only [DThread.enter, hlt, if_true, hdecode]
    rcases h[r]? with _ | ⟨c, ys⟩ | _
    · exact DGets.now _ _ rfl rfl (fun h => by cases h)
    · exact dgets_stmts ih r c as (by omega) (decl c).dec ⟨h, b⟩
    · exact DGets.now _ _ rfl rfl (fun h => by cases h)

/-- A thread alone that has finished did what `hdecode` does; and it finishes. -/
theorem go_hdecode (sup : Suppliers) (n : Nat) (r : Nat) (h : Heap) (b : RBuf) : ∃ K, ∀ k,
    (K ≤ k → (DThread.go sup n k (h, DThread.enter n r h ⟨[], b, none⟩)).2.err ≠ none
      ∨ (DThread.go sup n k (h, DThread.enter n r h ⟨[], b, none⟩)).2.stack = [])
    ∧ ((DThread.go sup n k (h, DThread.enter n r h ⟨[], b, none⟩)).2.err ≠ none
      ∨ (DThread.go sup n k (h, DThread.enter n r h ⟨[], b, none⟩)).2.stack = [] →
        ((DThread.go sup n k (h, DThread.enter n r h ⟨[], b, none⟩)).1, (DThread.go sup n k (h, DThread.enter n r h ⟨[], b, none⟩)).2.buf,
          (DThread.go sup n k (h, DThread.enter n r h ⟨[], b, none⟩)).2.err) = hdecode sup n r h b) := by
  obtain ⟨K, h1, h2, h3, h4⟩ := dgets_hdecode sup n n r h [] b (by simp)
  have hfin : (DThread.go sup n K (h, DThread.enter n r h ⟨[], b, none⟩)).2.err ≠ none
      ∨ (DThread.go sup n K (h, DThread.enter n r h ⟨[], b, none⟩)).2.stack = [] := by
    rw [h3]
    rcases he : (hdecode sup n r h b).2.2 with _ | e
    · exact .inr (h4 he)
    · exact .inl (by simp)
  refine ⟨K, fun k => ⟨fun hk => ?_, fun hd => ?_⟩⟩
  · obtain ⟨l, rfl⟩ := Nat.le.dest hk
    rw [DThread.go_add, DThread.go_done sup n _ hfin]
    exact hfin
  · have h5 : DThread.go sup n k (h, DThread.enter n r h ⟨[], b, none⟩) = DThread.go sup n K (h, DThread.enter n r h ⟨[], b, none⟩) := by
      rcases Nat.le_total k K with hk | hk
      · obtain ⟨l, rfl⟩ := Nat.le.dest hk
        rw [DThread.go_add, DThread.go_done sup n _ hd]
      · obtain ⟨l, rfl⟩ := Nat.le.dest hk
        rw [DThread.go_add, DThread.go_done sup n _ hfin]
    rw [h5, h1, h2, h3]

end FinProto
