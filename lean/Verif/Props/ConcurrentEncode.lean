import Verif.Proofs.ConcurrentEncode
import Verif.Model.Factory
/-
C60: several threads encoding the same message object, each into its own buffer.
-/
namespace FinProto

/-- **C60.** Threads call `encode` on the same message at the same time, each with its own buffer.  If the parts of the message
compute no fields themselves, and the message itself computes none either or all buffers start with the same readable
bytes (for instance none), then in every schedule each call that has returned or thrown did exactly what it would have done alone: same
buffer, same exception. -/
theorem C60_shared_encode (w : World) (n : Nat) (c : Cls) (fs : List Val) (hparts : framelessList fs = true)
    (bufs : Nat → WBuf) (hvalid : ∀ i, (bufs i).Valid)
    (hsame : hasComputed c = false ∨ ∀ i j, (bufs i).readable = (bufs j).readable) (sched : List Nat) (i : Nat) :
    let end_ := (EncSys.start c fs bufs).run w n sched
    end_.finished i → ((end_.thr i).buf, (end_.thr i).err) = (encode w (n + 1) (.obj c fs) (bufs i)).2 := by
  intro end_ hfin
  obtain ⟨ks, h⟩ := encSys_run w n c fs bufs hparts (fun i => (hvalid i).1) hsame sched
  obtain ⟨st, hst, ht⟩ := h.at_ i
  have henc : (encode w (n + 1) (.obj c fs) (bufs i)).2 =
      ((encStmts w (encode w n) (decl c).enc ⟨fs, bufs i, fun _ => none⟩).1.buf,
        (encStmts w (encode w n) (decl c).enc ⟨fs, bufs i, fun _ => none⟩).2) := rfl
  rw [henc]
  unfold alone at hst
  rcases ht with ⟨herr, htodo, hbuf, -⟩ | ⟨e, s, herr, hs, he, hbuf⟩
  · rcases hfin with hf | hf
    · exact absurd herr hf
    · have hl : (decl c).enc.length ≤ ks i := by
        have hf' : (((EncSys.start c fs bufs).run w n sched).thr i).todo = [] := hf
        rw [htodo] at hf'
        simpa using hf'
      rw [List.take_of_length_le hl] at hst
      rw [hst]
      show _ = (st.buf, none)
      rw [← hbuf, ← herr]
  · have hsplit : (decl c).enc = (decl c).enc.take (ks i) ++ s :: (decl c).enc.drop (ks i + 1) := by
      obtain ⟨hlt, hg⟩ := List.getElem?_eq_some_iff.1 hs
      rw [← hg, ← List.drop_eq_getElem_cons hlt, List.take_append_drop]
    have : encStmts w (encode w n) (decl c).enc ⟨fs, bufs i, fun _ => none⟩ = ((encStmt w (encode w n) s st).1, some e) := by
      rw [hsplit, encStmts_append, hst]
      simp only [encStmts]
      revert he
      rcases encStmt w (encode w n) s st with ⟨st', _ | e'⟩
      · intro h; cases h
      · intro h; simp only at h ⊢; rw [h]
    rw [this]
    show _ = ((encStmt w (encode w n) s st).1.buf, some e)
    rw [← hbuf, ← herr]

/-- **C60.** … and once one of the calls has returned normally the shared object is left as that call alone would have left it. -/
theorem C60_shared_object (w : World) (n : Nat) (c : Cls) (fs : List Val) (hparts : framelessList fs = true)
    (bufs : Nat → WBuf) (hvalid : ∀ i, (bufs i).Valid)
    (hsame : hasComputed c = false ∨ ∀ i j, (bufs i).readable = (bufs j).readable) (sched : List Nat) (i : Nat) :
    let end_ := (EncSys.start c fs bufs).run w n sched
    (end_.thr i).todo = [] → (end_.thr i).err = none → .obj c end_.fs = (encode w (n + 1) (.obj c fs) (bufs i)).1 := by
  intro end_ htodo' herr'
  obtain ⟨ks, h⟩ := encSys_run w n c fs bufs hparts (fun i => (hvalid i).1) hsame sched
  obtain ⟨st, hst, ht⟩ := h.at_ i
  have hst0 := hst
  rcases ht with ⟨herr, htodo, hbuf, -⟩ | ⟨e, s, herr, hs, he, hbuf⟩
  · have hl : (decl c).enc.length ≤ ks i := by
      have hf' : (((EncSys.start c fs bufs).run w n sched).thr i).todo = [] := htodo'
      rw [htodo] at hf'
      simpa using hf'
    unfold alone at hst
    rw [List.take_of_length_le hl] at hst
    have henc : (encode w (n + 1) (.obj c fs) (bufs i)).1 =
      .obj c (encStmts w (encode w n) (decl c).enc ⟨fs, bufs i, fun _ => none⟩).1.fs := rfl
    rw [henc, hst]
    congr 1
    apply List.ext_getElem?
    intro f
    by_cases hf : framed c (ks i) f
    · exact h.new i f hf st hst0
    · have ha := alone_fields w n c fs bufs hparts i (ks i) st hst0
      rw [ha.2.2 f hf]
      refine h.old f ?_
      rintro j ⟨m, s, hm, hs, hf'⟩
      refine hf ⟨m, s, ?_, hs, hf'⟩
      have := (List.getElem?_eq_some_iff.1 hs).1
      omega
  · exact absurd (herr.symm.trans herr') (by simp)

/-- **C60.** Every call finishes: a thread that gets as many steps as `encode` has statements has returned or thrown. -/
theorem C60_finishes (w : World) (n : Nat) (c : Cls) (fs : List Val) (bufs : Nat → WBuf) (sched : List Nat) (i : Nat)
    (h : (decl c).enc.length ≤ sched.count i) : ((EncSys.start c fs bufs).run w n sched).finished i := by
  suffices H : ∀ sys : EncSys, (sys.thr i).todo.length ≤ sched.count i → (sys.run w n sched).finished i from H _ h
  clear h
  induction sched with
  | nil =>
    intro sys h
    exact Or.inr (List.length_eq_zero_iff.1 (Nat.le_zero.1 h))
  | cons j js ih =>
    intro sys h
    have hrun : sys.run w n (j :: js) = (sys.step w n j).run w n js := rfl
    rw [hrun]
    have hkeep : ∀ (js : List Nat) (sys : EncSys), (sys.thr i).err ≠ none → (sys.run w n js).finished i := by
      intro js
      induction js with
      | nil => intro sys h; exact Or.inl h
      | cons k ks ihk =>
        intro sys h
        have : sys.run w n (k :: ks) = (sys.step w n k).run w n ks := rfl
        rw [this]
        refine ihk _ ?_
        unfold EncSys.step
        split
        · rename_i s ss herr htodo
          simp only
          split
          · rename_i hik; subst hik; exact absurd herr h
          · exact h
        · exact h
    by_cases hji : j = i
    · subst hji
      rw [List.count_cons_self] at h
      unfold EncSys.step
      split
      · rename_i s ss herr htodo
        refine ih _ ?_
        simp only [if_true]
        rw [htodo] at h
        simp only [List.length_cons] at h
        omega
      · rename_i hno
        by_cases herr : (sys.thr j).err = none
        · cases htodo : (sys.thr j).todo with
          | nil => exact ih sys (by rw [htodo]; simp)
          | cons s ss => exact absurd htodo (hno s ss herr)
        · exact hkeep js sys herr
    · rw [List.count_cons_of_ne (fun e => hji e)] at h
      refine ih _ ?_
      unfold EncSys.step
      split
      · simp only [if_neg (fun e : i = j => hji e.symm)]; exact h
      · exact h

/-- An SSE heartbeat frame. -/
private def beat : List Val := [.num ⟨.i32, 33⟩, .num ⟨.i64, 7⟩, .num ⟨.i32, 0⟩, .obj .sse_Heartbeat [], .num ⟨.i32, 0⟩]
private def sseWorld : World := ⟨fun n => if n = "SSE_BIN" then some sseBinService else none, fun _ _ => none⟩
/-- Thread 0 has an empty buffer, the others one with a byte in it. -/
private def twoBufs : Nat → WBuf
  | 0 => ⟨[], 0, 1000⟩
  | _ => ⟨[5], 0, 1000⟩

/-- Thread 0 up to its checksum, then all of thread 1, then the rest of thread 0. -/
private def badSched : List Nat := List.replicate 10 0 ++ List.replicate 11 1 ++ [0]

/-- **C60, violated.** The restriction on the buffers is needed: a frame with a registered checksum, encoded by two threads into
buffers with different content.  The first thread sends the checksum the second has computed: its buffer differs from what `encode`
alone writes, and the last four bytes are not the sum of the bytes before them. -/
theorem C60_checksum_race_violated :
    ∃ (w : World) (c : Cls) (fs : List Val) (bufs : Nat → WBuf) (sched : List Nat),
      framelessList fs = true ∧ wellTyped (.obj c fs) = true ∧ (∀ i, (bufs i).Valid) ∧
      let end_ := (EncSys.start c fs bufs).run w 5 sched
      end_.finished 0 ∧ end_.finished 1 ∧ (end_.thr 0).err = none ∧ (end_.thr 1).err = none
        ∧ (end_.thr 0).buf ≠ (encode w 6 (.obj c fs) (bufs 0)).2.1
        ∧ ((end_.thr 0).buf.data.drop 16, sseBin ((end_.thr 0).buf.data.take 16)) = ([0, 0, 0, 45], 40) := by
  refine ⟨sseWorld, .sse_SseBinary, beat, twoBufs, badSched, by decide, by decide +kernel, ?_, ?_⟩
  · intro i
    match i with
    | 0 => exact ⟨by decide, by decide⟩
    | _ + 1 => exact ⟨by show 0 ≤ 1; decide, by show 1 ≤ 1000; decide⟩
  · refine ⟨Or.inr (by decide +kernel), Or.inr (by decide +kernel), by decide +kernel, by decide +kernel, by decide +kernel, by decide +kernel⟩

/-- Two threads with empty buffers, one of them too small, in turns: one sends the frame, the other throws. -/
private def small : Nat → WBuf
  | 0 => ⟨[], 0, 1000⟩
  | _ => ⟨[], 0, 15⟩

example : framelessList beat = true ∧ (∀ i j, (small i).readable = (small j).readable) ∧ (∀ i, (small i).Valid) := by
  refine ⟨by decide, ?_, ?_⟩
  · have : ∀ i, (small i).readable = [] := by intro i; match i with | 0 => rfl | _ + 1 => rfl
    intro i j; rw [this, this]
  · intro i
    match i with
    | 0 => exact ⟨by decide, by decide⟩
    | _ + 1 => exact ⟨by show 0 ≤ 0; decide, by show 0 ≤ 15; decide⟩

example : let end_ := (EncSys.start .sse_SseBinary beat small).run sseWorld 5 (List.replicate 11 [0, 1]).flatten
    ((end_.thr 0).buf.data, (end_.thr 0).err) = ([0, 0, 0, 33, 0, 0, 0, 0, 0, 0, 0, 7, 0, 0, 0, 0, 0, 0, 0, 40], none)
      ∧ (end_.thr 1).err = some .indexOutOfBounds := by
  refine ⟨by decide +kernel, by decide +kernel⟩

private theorem small_ok : (∀ i, (small i).Valid) ∧ ∀ i j, (small i).readable = (small j).readable := by
  have : ∀ i, (small i).readable = [] := by intro i; match i with | 0 => rfl | _ + 1 => rfl
  refine ⟨?_, fun i j => by rw [this, this]⟩
  intro i
  match i with
  | 0 => exact ⟨by decide, by decide⟩
  | _ + 1 => exact ⟨by show 0 ≤ 0; decide, by show 0 ≤ 15; decide⟩

/-- `C60_shared_encode`, `C60_shared_object`, `C60_finishes`. -/
example := C60_shared_encode sseWorld 5 .sse_SseBinary beat (by decide) small small_ok.1 (.inr small_ok.2) (List.replicate 11 [0, 1]).flatten 1
example := C60_shared_object sseWorld 5 .sse_SseBinary beat (by decide) small small_ok.1 (.inr small_ok.2) (List.replicate 11 [0, 1]).flatten 1
example := C60_finishes sseWorld 5 .sse_SseBinary beat small (List.replicate 11 [0, 1]).flatten 1 (by decide +kernel)

end FinProto
