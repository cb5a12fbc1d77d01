import Verif.Proofs.Keys
/-
C96: messages as keys of a `HashMap` (and elements of a `HashSet`).

`MapHistory w n m cs` (`Spec/Keys.lean`): the map is in state `m` after the calls `cs`, with anything harmless done to messages in between.
`valueOf u cs`: what the calls stored under the value `u` last, said without hash codes and objects.
-/
namespace FinProto

/-- **C96.** In every history, `get`, `put` and `remove` with a message as key, which may be another object than the one that was put in, answer what
was stored last under a message with the same values. -/
theorem C96_map (w : World) (n : Nat) (m : KeyMap) (cs : List KeyCall) (hm : MapHistory w n m cs) (u : Val) (x : HVal) (hx : IsKey n m.h u x) :
    m.get n x = .ok (valueOf u cs) ∧ (∀ k, (m.put n x k).2 = .ok (valueOf u cs)) ∧ (m.remove n x).2 = .ok (valueOf u cs) := by
  obtain ⟨l, h1, h2, h3, h4⟩ := keyInv w n hm
  obtain ⟨j, hj, hj'⟩ := isKey_hash hx
  refine ⟨?_, fun k => ?_, ?_⟩
  · simp only [KeyMap.get, hj', h1, getIn_eq n m.h x u j hx hj l h2, h4 u]
  · obtain ⟨l', g1, -⟩ := putIn_eq n m.h x u j hx hj k l h2 h3
    simp only [KeyMap.put, hj', h1, g1, h4 u]
  · obtain ⟨l', g1, -⟩ := removeIn_eq n m.h x u j hx hj l h2 h3
    simp only [KeyMap.remove, hj', h1, g1, h4 u]

/-- **C96 (each message once).** The map has exactly one entry for every message value stored in it, with what was stored last, and no others. -/
theorem C96_entries (w : World) (n : Nat) (m : KeyMap) (cs : List KeyCall) (hm : MapHistory w n m cs) (u : Val) :
    (∀ k, valueOf u cs = some k ↔ ∃ (i : Nat) (e : Entry) (v : Val), m.entries[i]? = some e ∧ Shows m.h v e.key ∧ same v u ∧ e.val = k)
    ∧ ∀ (i j : Nat) (e e' : Entry) (v v' : Val), m.entries[i]? = some e → m.entries[j]? = some e' → Shows m.h v e.key → Shows m.h v' e'.key → same v v' → i = j := by
  obtain ⟨l, h1, h2, h3, h4⟩ := keyInv w n hm
  have look : ∀ (i : Nat) (e : Entry) (v : Val), m.entries[i]? = some e → Shows m.h v e.key → l[i]? = some (e, v) := by
    intro i e v he hv
    rw [h1, List.getElem?_map, Option.map_eq_some_iff] at he
    obtain ⟨⟨e', v'⟩, hp, rfl⟩ := he
    rw [hp, shows_det _ _ _ hv (h2 _ (List.mem_of_getElem? hp)).1.1]
  constructor
  · intro k
    rw [h4 u]
    constructor
    · intro hk
      obtain ⟨i, p, hp, hs, rfl⟩ := findIn_some hk
      exact ⟨i, p.1, p.2, by rw [h1, List.getElem?_map, hp]; rfl, (h2 p (List.mem_of_getElem? hp)).1.1, hs, rfl⟩
    · rintro ⟨i, e, v, he, hv, hs, rfl⟩
      exact findIn_of h3 (look i e v he hv) hs
  · intro i j e e' v v' he he' hv hv' hs
    have g1 := look i e v he hv
    have g2 := look j e' v' he' hv'
    rw [List.pairwise_iff_getElem] at h3
    obtain ⟨b1, c1⟩ := List.getElem?_eq_some_iff.1 g1
    obtain ⟨b2, c2⟩ := List.getElem?_eq_some_iff.1 g2
    rcases Nat.lt_trichotomy i j with g | g | g
    · exact absurd (by rw [c1, c2]; exact hs) (h3 i j b1 b2 g)
    · exact g
    · exact absurd (by rw [c1, c2]; exact same_symm _ _ hs) (h3 j i b2 b1 g)

/-- **C96 (no hash code).** A message that contains one without fields cannot be used as a key: every operation throws `StackOverflowError`, and the map
is not changed. -/
theorem C96_not_hashable (n : Nat) (m : KeyMap) (u : Val) (x : HVal) (hs : Shows m.h u x) (hu : wellTyped u = true) (hh : hashable u = false)
    (k : Nat) : m.get n x = .error .stackOverflow ∧ m.put n x k = (m, .error .stackOverflow) ∧ m.remove n x = (m, .error .stackOverflow) := by
  have : hhash m.h n x = .error .stackOverflow := by
    rw [hhash_eq m.h n u x hs]
    exact (C44_terminates_iff_partial u hu).2.2 hh n
  simp [KeyMap.get, KeyMap.put, KeyMap.remove, this]

/-- Two objects with the same values, and a frame around one of them. -/
def keysHeap : Heap :=
  [.msg .sample_SubPacket [.num ⟨.i32, 7⟩, .ref 1], .arr [.num ⟨.i16, 5⟩],
   .msg .sample_SubPacket [.num ⟨.i32, 7⟩, .ref 3], .arr [.num ⟨.i16, 5⟩],
   .msg .sample_RootPacket [.num ⟨.i16, 3⟩, .num ⟨.i32, 0⟩, .ref 0, .num ⟨.i32, 0⟩]]

def keysSub : Val := .obj .sample_SubPacket [.num ⟨.i32, 7⟩, .list [.num ⟨.i16, 5⟩]]

theorem keysHeap_key (i : Nat) (hi : i = 0 ∨ i = 2) : IsKey 9 keysHeap keysSub (.ref i) := by
  rcases hi with rfl | rfl <;> exact ⟨by decide +kernel, by decide +kernel, by decide +kernel, by decide +kernel⟩

/-- The sub-packet is put in; then the frame is encoded, which contains it; it is found with the other object. -/
example : ∃ m, MapHistory World.initial 9 m [.put keysSub 42] ∧ m.h ≠ keysHeap ∧ m.get 9 (.ref 2) = .ok (some 42) := by
  have h1 : MapHistory World.initial 9 _ [.put keysSub 42] :=
    .put ⟨keysHeap, []⟩ [] (.ref 0) keysSub 42 (.start keysHeap) (keysHeap_key 0 (.inl rfl))
  have e1 : ((KeyMap.put 9 ⟨keysHeap, []⟩ (.ref 0) 42).1).h = keysHeap := by
    simp only [KeyMap.put]
    split
    · rfl
    · split <;> rfl
  have h2 := MapHistory.app _ _ (.encode (.ref 4) ⟨[], 0, 100⟩) h1 (by
    intro e he q c ys hk _ hq
    have hk' : e.key = .ref 0 := by
      obtain ⟨j, hj, hj'⟩ := isKey_hash (keysHeap_key 0 (.inl rfl))
      simp only [KeyMap.put, hj', putIn, List.mem_singleton] at he
      rw [he]
    rw [e1] at hk hq
    rw [hk', ← refs_iff_reach keysHeap keysSub (.ref 0) (keysHeap_key 0 (.inl rfl)).1] at hk
    have : q = 0 ∨ q = 1 := by
      have e : refs keysHeap keysSub (.ref 0) = [0, 1] := by decide +kernel
      rw [e] at hk
      simpa using hk
    rcases this with rfl | rfl
    · have : c = .sample_SubPacket := by
        have e : keysHeap[0]? = some (.msg .sample_SubPacket [.num ⟨.i32, 7⟩, .ref 1]) := rfl
        rw [e] at hq; cases hq; rfl
      rw [this]; decide +kernel
    · have e : keysHeap[1]? = some (.arr [.num ⟨.i16, 5⟩]) := rfl
      rw [e] at hq; cases hq)
  refine ⟨_, h2, ?_, ?_⟩
  · simp only [e1, AppOp.run]
    decide +kernel
  · have hk : IsKey 9 (AppOp.run World.initial 9 keysHeap (.encode (.ref 4) ⟨[], 0, 100⟩)) keysSub (.ref 2) :=
      ⟨by simp only [AppOp.run]; decide +kernel, (keysHeap_key 2 (.inr rfl)).2⟩
    have := (C96_map World.initial 9 _ _ h2 keysSub (.ref 2) (by simp only [e1]; exact hk)).1
    rw [this, valueOf, if_pos (same_refl _)]

/-- The message in C44's example has no hash code. -/
example : Shows [.msg .sse_SseBinary [.num ⟨.i32, 33⟩, .num ⟨.i64, 5⟩, .num ⟨.i32, 0⟩, .ref 1, .num ⟨.i32, 0⟩], .msg .sse_Heartbeat []] exHeartbeat (.ref 0)
    ∧ wellTyped exHeartbeat = true ∧ hashable exHeartbeat = false := by decide +kernel

/-- **C96, violated for frames.** A frame that is put into a map and then sent is not found any more, not even with the same object, because `encode`
sets its length and checksum: `get` answers that there is nothing, and `put` makes a second entry for the same object. -/
theorem C96_encode_loses_violated :
    let m := (KeyMap.put 9 ⟨keysHeap, []⟩ (.ref 4) 42).1
    let m' : KeyMap := ⟨AppOp.run World.initial 9 m.h (.encode (.ref 4) ⟨[], 0, 100⟩), m.entries⟩
    m.get 9 (.ref 4) = .ok (some 42) ∧ (hencode World.initial 9 (.ref 4) m.h ⟨[], 0, 100⟩).2.2 = none
      ∧ m'.get 9 (.ref 4) = .ok none ∧ (m'.put 9 (.ref 4) 43).1.entries.map (·.key) = [.ref 4, .ref 4] := by
  have ok : ∀ (o : Except JErr (Option Nat)) (k : Option Nat), (match o with | .ok j => decide (j = k) | .error _ => false) = true → o = .ok k := by
    intro o k h
    cases o with
    | ok j => rw [decide_eq_true_eq] at h; rw [h]
    | error e => cases h
  exact ⟨ok _ _ (by decide +kernel), by decide +kernel, ok _ _ (by decide +kernel), by decide +kernel⟩

/-- `C96_entries` on the history of one `put`, and `C96_not_hashable`. -/
example := C96_entries World.initial 9 _ _ (.put ⟨keysHeap, []⟩ [] (.ref 0) keysSub 42 (.start keysHeap) (keysHeap_key 0 (.inl rfl))) keysSub
example := C96_not_hashable 9
  ⟨[.msg .sse_SseBinary [.num ⟨.i32, 33⟩, .num ⟨.i64, 5⟩, .num ⟨.i32, 0⟩, .ref 1, .num ⟨.i32, 0⟩], .msg .sse_Heartbeat []], []⟩ exHeartbeat (.ref 0)
  (by decide +kernel) (by decide +kernel) (by decide +kernel) 42

end FinProto
