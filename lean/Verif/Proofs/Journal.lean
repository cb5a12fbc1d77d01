import Verif.Spec.Journal
import Verif.Props.Stream
/-
Lemmas for C98: a journal of messages.
-/
namespace FinProto
open Journal

section
variable (cap : Nat) (wr : World) (m : Nat) (c : Cls) (o : Nat) (ho : offset? (wire c) 1 = some o) (hpos : 0 < o) (hm : 0 < m)
include ho hpos hm

theorem unpack_nil : unpack wr m c [] = ⟨[], [], false⟩ := by
  obtain ⟨m', rfl⟩ : ∃ m', m = m' + 1 := ⟨m - 1, by omega⟩
  exact unpack_wait _ _ _ _ (C35_header_incomplete wr m' c 1 o (freshFields c) ⟨[], [], 0⟩ ho (freshFields_length c) (by simp)
    (by simpa using hpos) rfl)

omit hm in
/-- A record, whole or torn, in front of anything. -/
theorem unpack_record (w : World) (n : Nat) (v : Val) (hcls : ∃ fs, v = .obj c fs) (hv : wellTyped v = true) (hcan : canonical wr v) (hd : depth v ≤ m)
    (hok : (encode w n v ⟨[], 0, cap⟩).2.2 = none) :
    ∃ fs', (encode w n v ⟨[], 0, cap⟩).1 = .obj c fs'
      ∧ (∀ rest, unpack wr m c ((encode w n v ⟨[], 0, cap⟩).2.1.data ++ rest)
          = ⟨fs' :: (unpack wr m c rest).delivered, (unpack wr m c rest).pending, (unpack wr m c rest).gaveUp⟩)
      ∧ ∀ k < (encode w n v ⟨[], 0, cap⟩).2.1.data.length,
          unpack wr m c ((encode w n v ⟨[], 0, cap⟩).2.1.data.take k) = ⟨[], (encode w n v ⟨[], 0, cap⟩).2.1.data.take k, false⟩ := by
  obtain ⟨fs, rfl⟩ := hcls
  obtain ⟨bytes, fs', h1, h2, h3⟩ := C23_round_trip w wr n m c fs ⟨[], 0, cap⟩ hv ⟨by simp, by simp⟩ hok hcan hd
  rw [List.nil_append] at h1
  have h0 := fun rest => h3 [] rest []
  simp only [List.nil_append, List.length_nil, Nat.zero_add] at h0
  have hp : 0 < bytes.length := by
    have := consumes_start wr m c o ho ⟨bytes ++ [], [], 0⟩ (by rw [h0])
    rw [h0] at this
    dsimp only at this
    omega
  refine ⟨fs', h2, fun rest => ?_, fun k hk => ?_⟩
  · rw [h1, unpack_take wr m c _ (by rw [h0]) (by rw [h0]; exact hp), h0]
    dsimp only
    rw [List.drop_left]
  · rw [h1] at hk ⊢
    apply unpack_wait
    have := C26_truncated_fails wr m c (freshFields c) ⟨bytes ++ [], [], 0⟩ (by rw [h0]) [] (bytes.take k)
      (by simpa using List.take_prefix k bytes) (by rw [h0]; simp only [List.length_take]; omega)
    simpa using this

/-- The first `k` bytes of the records of a life. -/
theorem unpack_life (w : World) (n : Nat) (vs : List Val) (k : Nat)
    (hs : ∀ v ∈ vs, (∃ fs, v = .obj c fs) ∧ wellTyped v = true ∧ canonical wr v ∧ depth v ≤ m ∧ (encode w n v ⟨[], 0, cap⟩).2.2 = none) :
    let u := unpack wr m c ((vs.map fun v => (encode w n v ⟨[], 0, cap⟩).2.1.data).flatten.take k)
    let i := wholeIn (vs.map fun v => (encode w n v ⟨[], 0, cap⟩).2.1.data.length) k
    u.delivered.map (Val.obj c) = (vs.map fun v => (encode w n v ⟨[], 0, cap⟩).1).take i ∧ u.gaveUp = false
      ∧ (vs.map fun v => (encode w n v ⟨[], 0, cap⟩).2.1.data).flatten.take k
          = ((vs.take i).map fun v => (encode w n v ⟨[], 0, cap⟩).2.1.data).flatten ++ u.pending
      ∧ ∀ rest, unpack wr m c (((vs.take i).map fun v => (encode w n v ⟨[], 0, cap⟩).2.1.data).flatten ++ rest)
          = ⟨u.delivered ++ (unpack wr m c rest).delivered, (unpack wr m c rest).pending, (unpack wr m c rest).gaveUp⟩ := by
  induction vs generalizing k with
  | nil =>
    dsimp only
    rw [List.map_nil, List.flatten_nil, List.take_nil, unpack_nil wr m c o ho hpos hm]
    simp [wholeIn]
  | cons v vs ih =>
    obtain ⟨h1, h2, h3, h4, h5⟩ := hs v (by simp)
    obtain ⟨fs', g1, g2, g3⟩ := unpack_record cap wr m c o ho hpos w n v h1 h2 h3 h4 h5
    dsimp only at ih ⊢
    rw [List.map_cons, List.map_cons, List.flatten_cons, wholeIn]
    by_cases hk : (encode w n v ⟨[], 0, cap⟩).2.1.data.length ≤ k
    · rw [if_pos hk, List.take_append, List.take_of_length_le hk, g2]
      obtain ⟨i1, i2, i3, i4⟩ := ih (k - (encode w n v ⟨[], 0, cap⟩).2.1.data.length) fun v hv => hs v (List.mem_cons_of_mem _ hv)
      dsimp only
      refine ⟨?_, i2, ?_, fun rest => ?_⟩
      · rw [List.map_cons, List.map_cons, List.take_succ_cons, i1, g1]
      · rw [List.take_succ_cons, List.map_cons, List.flatten_cons, List.append_assoc, ← i3]
      · rw [List.take_succ_cons, List.map_cons, List.flatten_cons, List.append_assoc, g2, i4, List.cons_append]
    · rw [if_neg hk, List.take_append, show k - (encode w n v ⟨[], 0, cap⟩).2.1.data.length = 0 by omega, List.take_zero, List.append_nil, g3 k (by omega)]
      exact ⟨by simp, rfl, by simp, fun rest => by simp⟩

theorem journal_all (lives : List Life) (hs : ∀ l ∈ lives, l.Writes cap wr m c) :
    ∃ whole ds torn, file cap wr m c lives = whole ++ torn ∧ unpack wr m c (whole ++ torn) = ⟨ds, torn, false⟩
      ∧ ds.map (Val.obj c) = (lives.map (Life.saved cap)).flatten
      ∧ ∀ rest, unpack wr m c (whole ++ rest)
          = ⟨ds ++ (unpack wr m c rest).delivered, (unpack wr m c rest).pending, (unpack wr m c rest).gaveUp⟩ := by
  induction hn : lives.length generalizing lives with
  | zero =>
    obtain rfl := List.length_eq_zero_iff.mp hn
    refine ⟨[], [], [], rfl, ?_, rfl, fun rest => by simp⟩
    rw [List.append_nil, unpack_nil wr m c o ho hpos hm]
  | succ k ih =>
    rcases List.eq_nil_or_concat lives with rfl | ⟨ls, l, rfl⟩
    · cases hn
    · rw [List.concat_eq_append] at hs hn ⊢
      obtain ⟨whole, ds, torn, h1, h2, h3, h4⟩ := ih ls (fun x hx => hs x (by simp [hx])) (by simpa using hn)
      obtain ⟨i1, i2, i3, i4⟩ := unpack_life cap wr m c o ho hpos hm l.w l.depth l.msgs l.kept (hs l (by simp))
      have hf : file cap wr m c (ls ++ [l]) = whole ++ (l.msgs.map (l.record cap)).flatten.take l.kept := by
        have : file cap wr m c (ls ++ [l]) = Life.after cap wr m c (file cap wr m c ls) l := by simp [file]
        rw [this, Life.after, h1, h2]
        simp
      generalize hX : (l.msgs.map fun v => (encode l.w l.depth v ⟨[], 0, cap⟩).2.1.data).flatten.take l.kept = X at i1 i2 i3 i4
      have hX' : (l.msgs.map (l.record cap)).flatten.take l.kept = X := hX
      have h0 : whole ++ X = whole ++ ((l.msgs.take (wholeIn (l.msgs.map fun v => (encode l.w l.depth v ⟨[], 0, cap⟩).2.1.data.length) l.kept)).map
          fun v => (encode l.w l.depth v ⟨[], 0, cap⟩).2.1.data).flatten ++ (unpack wr m c X).pending := by
        rw [List.append_assoc, ← i3]
      refine ⟨_, ds ++ (unpack wr m c X).delivered, (unpack wr m c X).pending, by rw [hf, hX', h0], ?_, ?_, fun rest => ?_⟩
      · rw [← h0, h4, i2]
      · rw [List.map_append, h3, i1, List.map_append, List.flatten_append]
        simp [Life.saved, Life.written, Life.record]
      · rw [List.append_assoc, h4, i4]
        simp

end
end FinProto
