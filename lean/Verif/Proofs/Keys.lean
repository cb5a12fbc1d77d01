import Verif.Spec.Keys
import Verif.Props.HeapObjects
import Verif.Props.Heap
import Verif.Props.Kept
import Verif.Props.Alias
import Verif.Proofs.HeapShows
/-
The invariant of a map with messages as keys (C96): every entry keeps the hash code of the value its key shows, and no two keys show the same value.
-/
namespace FinProto

open Classical

/-- The entry's key shows the value, and the entry keeps its hash code. -/
def EntryOK (n : Nat) (h : Heap) (p : Entry × Val) : Prop := IsKey n h p.2 p.1.key ∧ p.2.hashCode n = .ok p.1.hash

/-- The value of the first entry with a key that shows `u`. -/
noncomputable def findIn (u : Val) : List (Entry × Val) → Option Nat
  | [] => none
  | p :: l => if same p.2 u then some p.1.val else findIn u l

theorem findIn_none (u : Val) : ∀ l : List (Entry × Val), (∀ p ∈ l, ¬ same p.2 u) → findIn u l = none
  | [], _ => rfl
  | p :: l, hp => by
    rw [findIn, if_neg (hp p (List.mem_cons_self ..)), findIn_none u l fun q hq => hp q (List.mem_cons_of_mem _ hq)]

theorem findIn_some {u : Val} {k : Nat} : ∀ {l : List (Entry × Val)}, findIn u l = some k → ∃ (i : Nat) (p : Entry × Val), l[i]? = some p ∧ same p.2 u ∧ p.1.val = k
  | [], h => by cases h
  | p :: l, h => by
    rw [findIn] at h
    split at h
    · next hs => cases h; exact ⟨0, p, rfl, hs, rfl⟩
    · obtain ⟨i, q, h1, h2⟩ := findIn_some h
      exact ⟨i + 1, q, by simpa using h1, h2⟩

theorem findIn_of {u v : Val} {e : Entry} : ∀ {l : List (Entry × Val)} {i : Nat}, l.Pairwise (fun p q => ¬ same p.2 q.2) → l[i]? = some (e, v) →
    same v u → findIn u l = some e.val
  | p :: l, 0, _, h, hs => by
    simp only [List.getElem?_cons_zero, Option.some.injEq] at h
    subst h
    rw [findIn, if_pos hs]
  | p :: l, i + 1, hd, h, hs => by
    rw [List.pairwise_cons] at hd
    rw [List.getElem?_cons_succ] at h
    rw [findIn, if_neg, findIn_of hd.2 h hs]
    intro hp
    exact hd.1 _ (List.mem_of_getElem? h) (same_trans _ _ _ hp (same_symm _ _ hs))

theorem hit_eq (n : Nat) (h : Heap) (x : HVal) (v : Val) (k : BitVec 32) (hx : IsKey n h v x) (hk : v.hashCode n = .ok k) (p : Entry × Val)
    (hp : EntryOK n h p) : p.1.hit h n k x = .ok (decide (same p.2 v)) := by
  obtain ⟨hs, hv, -, hn⟩ := hx
  obtain ⟨⟨hs', hv', -, hn'⟩, hk'⟩ := hp
  unfold Entry.hit
  by_cases he : p.1.hash = k
  · rw [if_pos he]
    by_cases hr : p.1.key = x
    · rw [if_pos hr]
      rw [hr] at hs'
      rw [shows_det _ _ _ hs' hs]
      simp [same_refl]
    · rw [if_neg hr]
      obtain ⟨r, hr1, hr2⟩ := C76_equals h n v p.2 x p.1.key hs hs' hv hv' hn
      rw [hr1]
      congr 1
      rw [Bool.eq_iff_iff, hr2]
      simp only [decide_eq_true_eq]
      exact ⟨fun hh => same_symm _ _ hh, fun hh => same_symm _ _ hh⟩
  · rw [if_neg he]
    have : ¬ same p.2 v := by
      intro hh
      rw [hashCode_same n p.2 v (shaped_of_wellTyped _ hv') hh, hk] at hk'
      cases hk'
      exact he rfl
    simp [this]

theorem getIn_eq (n : Nat) (h : Heap) (x : HVal) (v : Val) (k : BitVec 32) (hx : IsKey n h v x) (hk : v.hashCode n = .ok k) :
    ∀ l : List (Entry × Val), (∀ p ∈ l, EntryOK n h p) → getIn h n k x (l.map (·.1)) = .ok (findIn v l)
  | [], _ => rfl
  | p :: l, hl => by
    rw [List.map_cons, getIn, hit_eq n h x v k hx hk p (hl p (List.mem_cons_self ..)), findIn]
    by_cases hh : same p.2 v
    · simp [hh]
    · simp only [hh, decide_false, if_false]
      exact getIn_eq n h x v k hx hk l fun q hq => hl q (List.mem_cons_of_mem _ hq)

theorem same_swap {a v u : Val} (hh : same a v) : same a u ↔ same v u :=
  ⟨fun h => same_trans _ _ _ (same_symm _ _ hh) h, fun h => same_trans _ _ _ hh h⟩

theorem putIn_eq (n : Nat) (h : Heap) (x : HVal) (v : Val) (k : BitVec 32) (hx : IsKey n h v x) (hk : v.hashCode n = .ok k) (i : Nat) :
    ∀ l : List (Entry × Val), (∀ p ∈ l, EntryOK n h p) → l.Pairwise (fun p q => ¬ same p.2 q.2) →
    ∃ l' : List (Entry × Val), putIn h n k x i (l.map (·.1)) = .ok (l'.map (·.1), findIn v l) ∧ (∀ p ∈ l', EntryOK n h p)
      ∧ l'.Pairwise (fun p q => ¬ same p.2 q.2) ∧ (∀ u, findIn u l' = if same v u then some i else findIn u l)
      ∧ ∀ q ∈ l', q.2 = v ∨ ∃ p ∈ l, p.2 = q.2
  | [], _, _ => by
    refine ⟨[(⟨k, x, i⟩, v)], rfl, ?_, by simp, ?_, ?_⟩
    · intro p hp
      rw [List.mem_singleton] at hp
      subst hp
      exact ⟨hx, hk⟩
    · intro u; simp [findIn]
    · intro q hq; rw [List.mem_singleton] at hq; subst hq; exact .inl rfl
  | p :: l, hl, hd => by
    have hp := hl p (List.mem_cons_self ..)
    have hl' : ∀ q ∈ l, EntryOK n h q := fun q hq => hl q (List.mem_cons_of_mem _ hq)
    rw [List.pairwise_cons] at hd
    rw [List.map_cons, putIn, hit_eq n h x v k hx hk p hp]
    by_cases hh : same p.2 v
    · refine ⟨({ p.1 with val := i }, p.2) :: l, ?_, ?_, ?_, ?_, ?_⟩
      · simp [hh, findIn]
      · intro q hq
        rcases List.mem_cons.mp hq with rfl | hq
        · exact hp
        · exact hl' q hq
      · exact List.pairwise_cons.mpr hd
      · intro u
        simp only [findIn, same_swap (u := u) hh]
        split <;> rfl
      · intro q hq
        rcases List.mem_cons.mp hq with rfl | hq
        · exact .inr ⟨p, List.mem_cons_self .., rfl⟩
        · exact .inr ⟨q, List.mem_cons_of_mem _ hq, rfl⟩
    · obtain ⟨l', h1, h2, h3, h4, h5⟩ := putIn_eq n h x v k hx hk i l hl' hd.2
      refine ⟨p :: l', ?_, ?_, ?_, ?_, ?_⟩
      · simp [hh, h1, findIn]
      · intro q hq
        rcases List.mem_cons.mp hq with rfl | hq
        · exact hp
        · exact h2 q hq
      · refine List.pairwise_cons.mpr ⟨fun q hq => ?_, h3⟩
        rcases h5 q hq with e | ⟨r, hr, e⟩
        · rw [e]; exact hh
        · rw [← e]; exact hd.1 r hr
      · intro u
        simp only [findIn, h4 u]
        by_cases hu : same p.2 u
        · have : ¬ same v u := fun hvu => hh (same_trans _ _ _ hu (same_symm _ _ hvu))
          simp [hu, this]
        · simp [hu]
      · intro q hq
        rcases List.mem_cons.mp hq with rfl | hq
        · exact .inr ⟨q, List.mem_cons_self .., rfl⟩
        · rcases h5 q hq with e | ⟨r, hr, e⟩
          · exact .inl e
          · exact .inr ⟨r, List.mem_cons_of_mem _ hr, e⟩

theorem removeIn_eq (n : Nat) (h : Heap) (x : HVal) (v : Val) (k : BitVec 32) (hx : IsKey n h v x) (hk : v.hashCode n = .ok k) :
    ∀ l : List (Entry × Val), (∀ p ∈ l, EntryOK n h p) → l.Pairwise (fun p q => ¬ same p.2 q.2) →
    ∃ l' : List (Entry × Val), removeIn h n k x (l.map (·.1)) = .ok (l'.map (·.1), findIn v l) ∧ (∀ p ∈ l', p ∈ l)
      ∧ l'.Pairwise (fun p q => ¬ same p.2 q.2) ∧ (∀ u, findIn u l' = if same v u then none else findIn u l)
  | [], _, _ => ⟨[], rfl, by simp, by simp, by simp [findIn]⟩
  | p :: l, hl, hd => by
    have hp := hl p (List.mem_cons_self ..)
    have hl' : ∀ q ∈ l, EntryOK n h q := fun q hq => hl q (List.mem_cons_of_mem _ hq)
    rw [List.pairwise_cons] at hd
    rw [List.map_cons, removeIn, hit_eq n h x v k hx hk p hp]
    by_cases hh : same p.2 v
    · refine ⟨l, by simp [hh, findIn], fun q hq => List.mem_cons_of_mem _ hq, hd.2, fun u => ?_⟩
      simp only [findIn, same_swap (u := u) hh]
      by_cases hu : same v u
      · rw [if_pos hu]
        refine findIn_none u l fun q hq hqu => hd.1 q hq ?_
        exact same_trans _ _ _ (same_trans _ _ _ hh hu) (same_symm _ _ hqu)
      · simp [hu]
    · obtain ⟨l', h1, h2, h3, h4⟩ := removeIn_eq n h x v k hx hk l hl' hd.2
      refine ⟨p :: l', by simp [hh, h1, findIn], ?_, List.pairwise_cons.mpr ⟨fun q hq => hd.1 q (h2 q hq), h3⟩, fun u => ?_⟩
      · intro q hq
        rcases List.mem_cons.mp hq with rfl | hq
        · exact List.mem_cons_self ..
        · exact List.mem_cons_of_mem _ (h2 q hq)
      · simp only [findIn, h4 u]
        by_cases hu : same p.2 u
        · have : ¬ same v u := fun hvu => hh (same_trans _ _ _ hu (same_symm _ _ hvu))
          simp [hu, this]
        · simp [hu]

/-- The entries hold keys that are all different, and the map answers what the calls before require. -/
def KeyInv (n : Nat) (m : KeyMap) (cs : List KeyCall) : Prop :=
  ∃ l : List (Entry × Val), m.entries = l.map (·.1) ∧ (∀ p ∈ l, EntryOK n m.h p) ∧ l.Pairwise (fun p q => ¬ same p.2 q.2)
    ∧ ∀ u, valueOf u cs = findIn u l

theorem isKey_hash {n : Nat} {h : Heap} {v : Val} {x : HVal} (hx : IsKey n h v x) : ∃ k, v.hashCode n = .ok k ∧ hhash h n x = .ok k := by
  obtain ⟨hs, hv, hh, hn⟩ := hx
  obtain ⟨k, hk⟩ := (C44_terminates_iff_partial v hv).2.1 hh
  exact ⟨k, hk n hn, by rw [hhash_eq h n v x hs, hk n hn]⟩

/-- Harmless operations leave the keys as they are. -/
theorem harmless_shows (w : World) (n : Nat) (m : KeyMap) (a : AppOp) (ha : Harmless m a) (e : Entry) (he : e ∈ m.entries) (v : Val)
    (hs : Shows m.h v e.key) : Shows (a.run w n m.h) v e.key := by
  cases a with
  | new c => exact shows_append m.h _ v e.key hs
  | newList => exact shows_append m.h _ v e.key hs
  | set r f y => exact shows_elsewhere m.h _ r (fun q hq => Heap.setField_ne m.h r f q y hq) v e.key hs (ha e he)
  | list a ys => exact shows_elsewhere m.h _ a (fun q hq => by exact List.getElem?_set_ne (Ne.symm hq)) v e.key hs (ha e he)
  | encode x b =>
    refine (shows_frame m.h _ v e.key hs fun q hq => ?_).1
    have hr := (refs_iff_reach m.h v e.key hs q).mp hq
    show (hencode w n x m.h b).1[q]? = m.h[q]?
    by_cases hx : Reach m.h x q
    · have hlt := refs_lt m.h v e.key hs q hq
      exact chg_plain (hencode_chg w n x m.h b) (List.getElem?_eq_getElem hlt) fun c ys ho =>
        ha e he q c ys hr hx (by rw [List.getElem?_eq_getElem hlt, ho])
    · exact hencode_outside w n x m.h b q hx
  | decode r b =>
    exact C97_others w.suppliers n r m.h b v e.key hs fun q hq hm => ha e he q hq (mayChange_initial w m.h r q hm)

theorem keyInv (w : World) (n : Nat) {m : KeyMap} {cs : List KeyCall} (hm : MapHistory w n m cs) : KeyInv n m cs := by
  induction hm with
  | start h => exact ⟨[], rfl, by simp, by simp, fun _ => rfl⟩
  | put m cs x v k _ hx ih =>
    obtain ⟨l, h1, h2, h3, h4⟩ := ih
    obtain ⟨j, hj, hj'⟩ := isKey_hash hx
    obtain ⟨l', g1, g2, g3, g4, -⟩ := putIn_eq n m.h x v j hx hj k l h2 h3
    simp only [KeyMap.put, hj', h1, g1]
    exact ⟨l', rfl, g2, g3, fun u => by rw [valueOf, g4 u, h4 u]⟩
  | remove m cs x v _ hx ih =>
    obtain ⟨l, h1, h2, h3, h4⟩ := ih
    obtain ⟨j, hj, hj'⟩ := isKey_hash hx
    obtain ⟨l', g1, g2, g3, g4⟩ := removeIn_eq n m.h x v j hx hj l h2 h3
    simp only [KeyMap.remove, hj', h1, g1]
    exact ⟨l', rfl, fun p hp => h2 p (g2 p hp), g3, fun u => by rw [valueOf, g4 u, h4 u]⟩
  | app m cs a _ ha ih =>
    obtain ⟨l, h1, h2, h3, h4⟩ := ih
    refine ⟨l, h1, fun p hp => ?_, h3, h4⟩
    obtain ⟨⟨hs, hk⟩, hh⟩ := h2 p hp
    exact ⟨⟨harmless_shows w n m a ha p.1 (by rw [h1]; exact List.mem_map_of_mem hp) p.2 hs, hk⟩, hh⟩

end FinProto
