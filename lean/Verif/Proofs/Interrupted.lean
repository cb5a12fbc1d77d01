import Verif.Proofs.ConcurrentHeap
import Verif.Proofs.HeapShows
import Verif.Proofs.Netty
import Verif.Spec.Interrupted
/-
Helper lemmas: what holds at every moment of `encode` calls, whatever the messages have in common.
-/
namespace FinProto

/-! ### The heap -/

/-- No condition on the objects. -/
abbrev Any : Nat → Prop := fun _ => True

theorem any_closed (h : Heap) : ClosedUnder Any h := fun _ _ _ _ _ _ => trivial

structure Loose (w : World) (h0 : Heap) (st : HSys) : Prop where
  chg : Chg w h0 st.h
  own : ∀ i, Own Any st.h (st.thr i)

theorem Loose.step {w : World} {n : Nat} {h0 : Heap} {st : HSys} (hi : Loose w h0 st) (i : Nat) : Loose w h0 (st.step w n i) := by
  obtain ⟨-, f2, f3⟩ := step_form w n (any_closed st.h) (fun q _ => rfl) (st.thr i) (hi.own i)
  refine ⟨hi.chg.trans f3.chg, fun j => ?_⟩
  by_cases hj : j = i
  · subst hj
    simp only [HSys.step, if_true]
    exact f2.chg f3.chg
  · simp only [HSys.step, if_neg hj]
    exact (hi.own j).chg f3.chg

theorem Loose.run {w : World} {n : Nat} {h0 : Heap} (sched : List Nat) : ∀ {st : HSys}, Loose w h0 st → Loose w h0 (st.run w n sched) := by
  induction sched with
  | nil => intro st hi; exact hi
  | cons i sched ih => intro st hi; exact ih (hi.step i)

theorem Loose.start (w : World) (n : Nat) (h : Heap) (roots : Nat → HVal) (bufs : Nat → WBuf) : Loose w h (HSys.start n h roots bufs) :=
  ⟨Chg.refl w h, fun i => enter_own n (roots i) (fun _ _ => trivial) _ (fun a ha => by cases ha)⟩

theorem loose_final (w : World) (e : Episode) (h : Heap) : Loose w h (e.final w h) := (Loose.start w e.depth h e.roots e.bufs).run e.sched

theorem afterEpisodes_chg (w : World) : ∀ (es : List Episode) (h : Heap), Chg w h (afterEpisodes w es h)
  | [], h => Chg.refl w h
  | e :: es, h => (loose_final w e h).chg.trans (afterEpisodes_chg w es _)

/-! ### The buffers -/

/-- Every statement that saves a position that is patched later is followed by the one that writes the zeros, and there is one patch only. -/
def patchOk : List EncStmt → Bool
  | [] => true
  | s :: ss => patchOk ss && match s with
    | .save x => ss.all fun s' => match s' with
      | .patch y _ t _ => y != x || (match ss with | .zero t' _ :: _ => t'.size == t.size && t'.isCount | _ => false)
      | _ => true
    | .patch .. => ss.all fun s' => match s' with | .patch .. => false | _ => true
    | _ => true

theorem patchOk_table (c : Cls) : patchOk (decl c).enc = true := by cases c <;> decide +kernel

theorem patchOk_tail {s : EncStmt} {ss : List EncStmt} (h : patchOk (s :: ss) = true) : patchOk ss = true := by
  simp only [patchOk, Bool.and_eq_true] at h; exact h.1

theorem patchOk_save {x : Nat} {ss : List EncStmt} (h : patchOk (.save x :: ss) = true) {f : Nat} {t : PTy} {e : Endian} (hm : EncStmt.patch x f t e ∈ ss) :
    ∃ t' e' ss', ss = .zero t' e' :: ss' ∧ t'.size = t.size ∧ t'.isCount = true := by
  simp only [patchOk, Bool.and_eq_true] at h
  have := List.all_eq_true.mp h.2 _ hm
  simp only [bne_self_eq_false, Bool.false_or] at this
  split at this
  · rename_i t' e' ss'
    simp only [Bool.and_eq_true, beq_iff_eq] at this
    exact ⟨t', e', ss', rfl, this.1, this.2⟩
  · cases this

theorem patchOk_patch {x f : Nat} {t : PTy} {e : Endian} {ss : List EncStmt} (h : patchOk (.patch x f t e :: ss) = true) {x' f' : Nat} {t' : PTy} {e' : Endian}
    (hm : EncStmt.patch x' f' t' e' ∈ ss) : False := by
  simp only [patchOk, Bool.and_eq_true] at h
  have := List.all_eq_true.mp h.2 _ hm
  cases this

/-- There are `k` zeros at `p`. -/
def zeros (d : List Byte) (p k : Nat) : Prop := p + k ≤ d.length ∧ ∀ i, p ≤ i → i < p + k → d[i]? = some 0

theorem zeros_mono {d d' : List Byte} {p k : Nat} (h : d <+: d') (hz : zeros d p k) : zeros d' p k := by
  refine ⟨Nat.le_trans hz.1 h.length_le, fun i h1 h2 => ?_⟩
  obtain ⟨r, rfl⟩ := h
  rw [List.getElem?_append_left (by have := hz.1; omega)]
  exact hz.2 i h1 h2

/-- What holds of an activation that began when `s` bytes were in the buffer: the positions it has saved are behind them, and where it will patch
there are zeros - or will be after the next statement. -/
structure Act (s : Nat) (d : List Byte) (a : Activation) : Prop where
  le : s ≤ d.length
  ok : patchOk a.todo = true
  loc : ∀ x p, a.loc x = some p → s ≤ p
  pend : ∀ x f t e, EncStmt.patch x f t e ∈ a.todo → ∀ p, a.loc x = some p → zeros d p t.size
    ∨ (a.loop = none ∧ p = d.length ∧ ∃ t' e' ss, a.todo = .zero t' e' :: ss ∧ t'.size = t.size ∧ t'.isCount = true)

/-- The same for an activation that waits for a call to return: the zeros are there. -/
structure Waits (s : Nat) (d : List Byte) (a : Activation) : Prop where
  le : s ≤ d.length
  ok : patchOk a.todo = true
  loc : ∀ x p, a.loc x = some p → s ≤ p
  pend : ∀ x f t e, EncStmt.patch x f t e ∈ a.todo → ∀ p, a.loc x = some p → zeros d p t.size

theorem Waits.act {s : Nat} {d d' : List Byte} {a : Activation} (h : Waits s d a) (hp : d <+: d') : Act s d' a :=
  ⟨Nat.le_trans h.le hp.length_le, h.ok, h.loc, fun x f t e hm p hx => .inl (zeros_mono hp (h.pend x f t e hm p hx))⟩

/-- A statement other than the one that writes zeros has been taken off. -/
theorem Act.next {s : Nat} {d d' : List Byte} {r : Nat} {st : EncStmt} {ss : List EncStmt} {loc : Nat → Option Nat} (h : Act s d ⟨r, st :: ss, loc, none⟩)
    (hst : ∀ t e, st ≠ .zero t e) (hp : d <+: d') (l : Option (Nat × EncElem × Nat)) : Waits s d' ⟨r, ss, loc, l⟩ := by
  refine ⟨Nat.le_trans h.le hp.length_le, patchOk_tail h.ok, h.loc, fun x f t e hm p hx => ?_⟩
  rcases h.pend x f t e (List.mem_cons_of_mem _ hm) p hx with h1 | ⟨-, -, t', e', ss', he, -⟩
  · exact zeros_mono hp h1
  · exact absurd (List.cons.inj he).1 (hst t' e')

theorem Act.inLoop {s : Nat} {d d' : List Byte} {r : Nat} {ss : List EncStmt} {loc : Nat → Option Nat} {k : Nat × EncElem × Nat} (h : Act s d ⟨r, ss, loc, some k⟩)
    (hp : d <+: d') (l : Option (Nat × EncElem × Nat)) : Waits s d' ⟨r, ss, loc, l⟩ := by
  refine ⟨Nat.le_trans h.le hp.length_le, h.ok, h.loc, fun x f t e hm p hx => ?_⟩
  rcases h.pend x f t e hm p hx with h1 | ⟨h1, -⟩
  · exact zeros_mono hp h1
  · cases h1

/-- The activations that wait: they have begun one after the other, and what each of them will patch is in front of the position at which the
next one began.  `u` is the position at which the running one began. -/
inductive Stk (s0 : Nat) (d : List Byte) : Nat → List Activation → Prop
  | nil (u : Nat) : s0 ≤ u → Stk s0 d u []
  | cons (u s : Nat) (a : Activation) (as : List Activation) : s ≤ u → Waits s (d.take u) a → Stk s0 d s as → Stk s0 d u (a :: as)

theorem Stk.mono {s0 : Nat} {d d' : List Byte} {u : Nat} {as : List Activation} (h : Stk s0 d u as) (hd : d'.take u = d.take u) : Stk s0 d' u as := by
  induction h with
  | nil u hu => exact .nil u hu
  | cons u s a as hs hw _ ih =>
    refine .cons u s a as hs (hd ▸ hw) (ih ?_)
    have := congrArg (List.take s) hd
    simpa [List.take_take, Nat.min_eq_left hs] using this

theorem Stk.le {s0 : Nat} {d : List Byte} {u : Nat} {as : List Activation} (h : Stk s0 d u as) : s0 ≤ u := by
  induction h with
  | nil u hu => exact hu
  | cons u s a as hs _ _ ih => omega

/-- The invariant of a thread whose call began when `s0` bytes were in its buffer. -/
def TInv (s0 : Nat) (t : HThread) : Prop :=
  t.err = none → match t.stack with
    | [] => s0 ≤ t.buf.data.length
    | a :: as => ∃ s, Act s t.buf.data a ∧ Stk s0 t.buf.data s as

/-- What a step does to the buffer. -/
structure BufStep (s0 : Nat) (b b' : WBuf) : Prop where
  rd : b'.rd = b.rd
  cap : b'.maxCap = b.maxCap
  old : b'.data.take s0 = b.data.take s0
  fill : FilledIn b.data b'.data
  len : b.data.length ≤ b'.data.length

theorem FilledIn.refl (d : List Byte) : FilledIn d d := fun _ _ h => .inl h

theorem FilledIn.trans {d1 d2 d3 : List Byte} (h1 : FilledIn d1 d2) (h2 : FilledIn d2 d3) : FilledIn d1 d3 := by
  intro k y hk
  have len : d2.length ≤ d3.length := by
    rcases Nat.lt_or_ge d3.length d2.length with hl | hl
    · have hlt : d3.length < d2.length := hl
      rcases h2 d3.length d2[d3.length] (List.getElem?_eq_getElem hlt) with h | h
      · simp at h
      · omega
    · exact hl
  rcases h1 k y hk with h | ⟨rfl, h⟩
  · exact h2 k y h
  · exact .inr ⟨rfl, by omega⟩

theorem FilledIn.of_prefix {d d' : List Byte} (h : d <+: d') : FilledIn d d' := by
  obtain ⟨r, rfl⟩ := h
  intro k y hk
  have := (List.getElem?_eq_some_iff.1 hk).1
  exact .inl (by rw [List.getElem?_append_left this]; exact hk)

theorem BufStep.refl (s0 : Nat) (b : WBuf) : BufStep s0 b b := ⟨rfl, rfl, rfl, FilledIn.refl _, Nat.le_refl _⟩

theorem BufStep.trans {s0 : Nat} {a b c : WBuf} (h1 : BufStep s0 a b) (h2 : BufStep s0 b c) : BufStep s0 a c :=
  ⟨h2.rd.trans h1.rd, h2.cap.trans h1.cap, h2.old.trans h1.old, h1.fill.trans h2.fill, Nat.le_trans h1.len h2.len⟩

theorem BufStep.of_ext {s0 : Nat} {b b' : WBuf} (h : Ext b b') (hs : s0 ≤ b.data.length) : BufStep s0 b b' := by
  refine ⟨h.1, h.2.1, ?_, FilledIn.of_prefix h.2.2, h.len⟩
  obtain ⟨r, hr⟩ := h.2.2
  rw [← hr, List.take_append_of_le_length hs]

theorem take_prefix {d d' : List Byte} (h : d <+: d') {u : Nat} (hu : u ≤ d.length) : d'.take u = d.take u := by
  obtain ⟨r, rfl⟩ := h
  rw [List.take_append_of_le_length hu]

theorem overwrite_take (d : List Byte) (p : Nat) (bs : List Byte) (u : Nat) (hu : u ≤ p) (hp : p + bs.length ≤ d.length) :
    (overwrite d p bs).take u = d.take u := by
  unfold overwrite
  rw [List.append_assoc, List.take_append_of_le_length (by simp; omega), List.take_take, Nat.min_eq_left hu]

theorem overwrite_len (d : List Byte) (p : Nat) (bs : List Byte) (hp : p + bs.length ≤ d.length) : (overwrite d p bs).length = d.length := by
  unfold overwrite
  simp only [List.length_append, List.length_take, List.length_drop]
  omega

theorem overwrite_out (d : List Byte) (p : Nat) (bs : List Byte) (hp : p + bs.length ≤ d.length) (i : Nat) (hi : i < p ∨ p + bs.length ≤ i) :
    (overwrite d p bs)[i]? = d[i]? := by
  unfold overwrite
  rcases hi with hi | hi
  · rw [List.append_assoc, List.getElem?_append_left (by simp; omega), List.getElem?_take_of_lt hi]
  · rw [List.getElem?_append_right (by simp; omega), List.getElem?_drop]
    congr 1
    simp; omega

theorem enter_tinv {s0 : Nat} (n : Nat) (x : HVal) (h : Heap) (as : List Activation) (b : WBuf)
    (hs : Stk s0 b.data b.data.length as) : TInv s0 (HThread.enter n x h ⟨as, b, none⟩) ∧ (HThread.enter n x h ⟨as, b, none⟩).buf = b := by
  unfold HThread.enter
  split
  · exact ⟨fun he => (by cases he), rfl⟩
  · split
    · split
      · rename_i r _
        split
        · rename_i c ys hr
          exact ⟨fun _ => ⟨b.data.length, ⟨Nat.le_refl _, patchOk_table c, fun _ _ h => (by cases h), fun _ _ _ _ _ _ h => (by cases h)⟩, hs⟩, rfl⟩
        · exact ⟨fun he => (by cases he), rfl⟩
      · exact ⟨fun he => (by cases he), rfl⟩
    · exact ⟨fun he => (by cases he), rfl⟩

theorem stk_push {s0 s : Nat} {d : List Byte} {a : Activation} {as : List Activation} (hw : Waits s d a) (hs : Stk s0 d s as) : Stk s0 d d.length (a :: as) :=
  .cons _ s a as hw.le (by rw [List.take_length]; exact hw) hs

/-- A thread that has written something and goes on with `a`. -/
theorem wrote_tinv {s0 s : Nat} {b : WBuf} {o : WBuf × Option JErr} (hx : Ext b o.1) {a : Activation} {as : List Activation}
    (hle : s ≤ b.data.length) (hw : o.2 = none → Act s o.1.data a) (hs : Stk s0 b.data s as) :
    TInv s0 ⟨a :: as, o.1, o.2⟩ ∧ BufStep s0 b o.1 :=
  ⟨fun he => ⟨s, hw he, hs.mono (take_prefix hx.2.2 hle)⟩, BufStep.of_ext hx (Nat.le_trans hs.le hle)⟩

theorem step_tinv {s0 : Nat} (w : World) (n : Nat) (h : Heap) (t : HThread) (ht : TInv s0 t) :
    TInv s0 (t.step w n h).2 ∧ BufStep s0 t.buf (t.step w n h).2.buf := by
  obtain ⟨stk, b, err⟩ := t
  rcases err with _ | e
  case some => exact ⟨ht, BufStep.refl _ _⟩
  rcases stk with _ | ⟨⟨r, todo, loc, loop⟩, as⟩
  · exact ⟨ht, BufStep.refl _ _⟩
  obtain ⟨s, ha, hs⟩ := ht rfl
  dsimp only at ha hs
  have hle := ha.le
  rcases loop with _ | ⟨f, el, i⟩
  · rcases todo with _ | ⟨st, ss⟩
    · simp only [HThread.step]
      refine ⟨fun _ => ?_, BufStep.refl _ _⟩
      cases hs with
      | nil u hu => exact Nat.le_trans hu hle
      | cons u s' a' as' h1 h2 h3 => exact ⟨s', h2.act (List.take_prefix _ _), h3⟩
    have keep : ∀ (b' : WBuf), b.data <+: b'.data → ∀ l, (∀ t e, st ≠ .zero t e) → Act s b'.data ⟨r, ss, loc, l⟩ := fun b' hp l hst =>
      (ha.next hst hp l).act (List.prefix_refl _)
    have plain : ∀ (o : WBuf × Option JErr) l, Ext b o.1 → (∀ t e, st ≠ .zero t e) → TInv s0 ⟨⟨r, ss, loc, l⟩ :: as, o.1, o.2⟩ ∧ BufStep s0 b o.1 :=
      fun o l hx hst => wrote_tinv hx hle (fun _ => keep o.1 hx.2.2 l hst) hs
    have wait : ∀ l, (∀ t e, st ≠ .zero t e) → Stk s0 b.data b.data.length (⟨r, ss, loc, l⟩ :: as) := fun l hst =>
      stk_push (ha.next hst (List.prefix_refl _) l) hs
    have stop : ∀ (e : JErr) as', TInv s0 ⟨as', b, some e⟩ ∧ BufStep s0 b b := fun e as' => ⟨fun he => (by cases he), BufStep.refl _ _⟩
    simp only [HThread.step]
    cases st with
    | list f zt p e el =>
      simp only [HThread.exec]
      split
      · exact plain _ none ((Good.writeInt _ _ _).ext b) (by simp)
      · split
        · exact plain _ none ((Good.writeInt _ _ _).ext b) (by simp)
        · exact plain _ (some (f, el, 0)) ((Good.writeInt _ _ _).ext b) (by simp)
        · exact stop _ _
    | obj f =>
      simp only [HThread.exec]
      split
      · rename_i x hx
        obtain ⟨h1, h2⟩ := enter_tinv n x h _ b (wait none (by simp))
        exact ⟨h1, by rw [h2]; exact BufStep.refl _ _⟩
      · exact stop _ _
    | objOpt f =>
      simp only [HThread.exec]
      split
      · exact plain (b, none) none (Ext.refl b) (by simp)
      · rename_i x _ hx
        obtain ⟨h1, h2⟩ := enter_tinv n x h _ b (wait none (by simp))
        exact ⟨h1, by rw [h2]; exact BufStep.refl _ _⟩
      · exact stop _ _
    | setLen f x y =>
      simp only [HThread.exec, hencStmt]
      rcases loc x with _ | p
      · exact stop _ _
      · rcases loc y with _ | q
        · exact stop _ _
        · exact plain (b, none) none (Ext.refl b) (by simp)
    | checksum f alg =>
      simp only [HThread.exec, hencStmt]
      rcases Registry.getService w.svc alg with _ | sv <;> exact plain (b, none) none (Ext.refl b) (by simp)
    | num f p e =>
      simp only [HThread.exec, hencStmt]
      rcases h.field r f with _ | _ | _ | _ | _ <;> first | exact stop _ _ | exact plain _ none ((Good.writeVal _ _ _).ext b) (by simp)
    | fixed f k pad left =>
      simp only [HThread.exec, hencStmt]
      rcases h.field r f with _ | _
      · exact stop _ _
      · exact plain _ none ((Good.writeFixedVal _ _ _ _).ext b) (by simp)
    | dyn f zt p e =>
      simp only [HThread.exec, hencStmt]
      rcases h.field r f with _ | _
      · exact stop _ _
      · exact plain _ none ((Good.writeDynVal _ _ _ _).ext b) (by simp)
    | patch x f p e =>
      simp only [HThread.exec, hencStmt]
      rcases hx : loc x with _ | q
      · exact stop _ _
      · rcases h.field r f with _ | _ | k | _ | _ <;> try exact stop _ _
        dsimp only
        rcases hk : k.convert p with _ | m
        · exact stop _ _
        · have hz : zeros b.data q (m.bytes e).length := by
            have hm : m.ty = p := Netty.convert_ty hk
            rcases ha.pend x f p e (List.mem_cons_self ..) q hx with h1 | ⟨-, -, t', e', ss', he, -⟩
            · simpa [hm] using h1
            · cases he
          have hsq : s ≤ q := ha.loc x q hx
          simp only [WBuf.set]
          rw [if_pos hz.1]
          refine ⟨fun _ => ⟨s, ⟨?_, patchOk_tail ha.ok, ha.loc, fun x' f' t' e' hm => (patchOk_patch ha.ok hm).elim⟩, hs.mono (overwrite_take _ _ _ _ hsq hz.1)⟩,
            rfl, rfl, overwrite_take _ _ _ _ (Nat.le_trans hs.le hsq) hz.1, fun k y hy => ?_, ?_⟩
          · dsimp only; rw [overwrite_len _ _ _ hz.1]; exact hle
          · have hlt := (List.getElem?_eq_some_iff.1 hy).1
            by_cases hin : q ≤ k ∧ k < q + (m.bytes e).length
            · have := hz.2 k hin.1 hin.2
              rw [hy] at this
              exact .inr ⟨Option.some.inj this, by dsimp only; rw [overwrite_len _ _ _ hz.1]; exact hlt⟩
            · exact .inl (by dsimp only; rw [overwrite_out _ _ _ hz.1 k (by omega)]; exact hy)
          · dsimp only; rw [overwrite_len _ _ _ hz.1]; exact Nat.le_refl _
    | save x =>
      simp only [HThread.exec, hencStmt]
      refine ⟨fun _ => ⟨s, ⟨hle, patchOk_tail ha.ok, fun y p hy => ?_, fun y f t e hm p hy => ?_⟩, hs⟩, BufStep.refl _ _⟩
      · simp only [setLoc] at hy
        split at hy
        · cases hy; exact hle
        · exact ha.loc y p hy
      · simp only [setLoc] at hy
        split at hy
        · rename_i hxy
          cases hy
          subst hxy
          obtain ⟨t', e', ss', h1, h2, h3⟩ := patchOk_save ha.ok hm
          exact .inr ⟨rfl, rfl, t', e', ss', h1, h2, h3⟩
        · exact .inl ((ha.next (by simp) (List.prefix_refl _) none).pend y f t e hm p hy)
    | zero p e =>
      simp only [HThread.exec, hencStmt]
      have hx := (Good.writeInt p e 0).ext b
      refine wrote_tinv hx hle (fun he => ?_) hs
      refine ⟨Nat.le_trans hle hx.len, patchOk_tail ha.ok, ha.loc, fun y f t e' hm q hy => ?_⟩
      rcases ha.pend y f t e' (List.mem_cons_of_mem _ hm) q hy with h1 | ⟨-, rfl, t', e'', ss', h1, h2, h3⟩
      · exact .inl (zeros_mono hx.2.2 h1)
      · cases h1
        left
        rw [writeInt_eq _ _ _ _ h3, toBytes_zero] at he ⊢
        simp only [WBuf.write, List.length_replicate] at he ⊢
        split at he
        · rename_i hfit
          rw [if_pos hfit, ← h2]
          refine ⟨by simp, fun i hi1 hi2 => ?_⟩
          dsimp only
          rw [List.getElem?_append_right hi1, List.getElem?_replicate_of_lt (by omega)]
        · cases he
  · have plain : ∀ (o : WBuf × Option JErr) l, Ext b o.1 → TInv s0 ⟨⟨r, todo, loc, l⟩ :: as, o.1, o.2⟩ ∧ BufStep s0 b o.1 :=
      fun o l hx => wrote_tinv hx hle (fun _ => (ha.inLoop hx.2.2 l).act (List.prefix_refl _)) hs
    simp only [HThread.step, HThread.iterate]
    split
    · exact ⟨fun he => (by cases he), BufStep.refl _ _⟩
    · split
      · exact plain (b, none) none (Ext.refl b)
      · rename_i x hx
        cases el with
        | obj =>
          obtain ⟨h1, h2⟩ := enter_tinv n x h _ b (stk_push (ha.inLoop (List.prefix_refl _) (some (f, .obj, i + 1))) hs)
          exact ⟨h1, by dsimp only at h2 ⊢; rw [h2]; exact BufStep.refl _ _⟩
        | num p e => exact plain _ _ ((Good.writeVal _ _ _).ext b)
        | fixed k pad left => exact plain _ _ ((Good.writeFixedVal _ _ _ _).ext b)
        | dyn zt p e => exact plain _ _ ((Good.writeDynVal _ _ _ _).ext b)

theorem run_tinv {s0 : Nat} (w : World) (n i : Nat) (sched : List Nat) : ∀ (st : HSys), TInv s0 (st.thr i) →
    TInv s0 ((st.run w n sched).thr i) ∧ BufStep s0 (st.thr i).buf ((st.run w n sched).thr i).buf := by
  induction sched with
  | nil => intro st hi; exact ⟨hi, BufStep.refl _ _⟩
  | cons j sched ih =>
    intro st hi
    have key : TInv s0 ((st.step w n j).thr i) ∧ BufStep s0 (st.thr i).buf ((st.step w n j).thr i).buf := by
      by_cases hj : i = j
      · subst hj
        simp only [HSys.step, if_true]
        exact step_tinv w n st.h _ hi
      · simp only [HSys.step, if_neg hj]
        exact ⟨hi, BufStep.refl _ _⟩
    obtain ⟨h1, h2⟩ := ih _ key.1
    exact ⟨h1, key.2.trans h2⟩

theorem go_tinv {s0 : Nat} (w : World) (n : Nat) (k : Nat) : ∀ (h : Heap) (t : HThread), TInv s0 t →
    TInv s0 (HThread.go w n k (h, t)).2 ∧ BufStep s0 t.buf (HThread.go w n k (h, t)).2.buf := by
  induction k with
  | zero => intro h t hi; exact ⟨hi, BufStep.refl _ _⟩
  | succ k ih =>
    intro h t hi
    obtain ⟨h1, h2⟩ := step_tinv w n h t hi
    obtain ⟨h3, h4⟩ := ih (t.step w n h).1 _ h1
    exact ⟨h3, h2.trans h4⟩

theorem start_tinv (n : Nat) (h : Heap) (roots : Nat → HVal) (bufs : Nat → WBuf) (i : Nat) :
    TInv (bufs i).data.length ((HSys.start n h roots bufs).thr i) ∧ ((HSys.start n h roots bufs).thr i).buf = bufs i :=
  enter_tinv n (roots i) h [] (bufs i) (.nil _ (Nat.le_refl _))

/-! ### Messages without frames -/

theorem frameless_class {h : Heap} {x : HVal} {q : Nat} (hr : Reach h x q) :
    ∀ v, Shows h v x → frameless v = true → ∀ c ys, h[q]? = some (.msg c ys) → hasComputed c = false := by
  induction hr with
  | here r =>
    intro v hs hf c ys hc
    exact (frameless_part (y := .null) hs hf hc).1 c ys rfl
  | step r q o y ho hy _ ih =>
    intro v hs hf
    obtain ⟨u, h1, h2⟩ := (frameless_part hs hf ho).2 hy
    exact ih u h1 h2

def isPatch : EncStmt → Bool
  | .patch .. => true
  | _ => false

theorem no_patch (c : Cls) (h : hasComputed c = false) : (decl c).enc.all (fun s => !isPatch s) = true := by
  revert h
  cases c <;> decide +kernel

theorem enter_buf (n : Nat) (x : HVal) (h : Heap) (t : HThread) : (t.enter n x h).buf = t.buf := by
  unfold HThread.enter
  split
  · rfl
  · split
    · split
      · split <;> rfl
      · rfl
    · rfl

/-- A step that does not patch only appends. -/
theorem step_ext (w : World) (n : Nat) (h : Heap) (t : HThread) (ht : ∀ a ∈ t.stack, ∀ s ∈ a.todo, isPatch s = false) :
    Ext t.buf (t.step w n h).2.buf := by
  obtain ⟨stk, b, err⟩ := t
  rcases err with _ | e
  case some => exact Ext.refl _
  rcases stk with _ | ⟨⟨r, todo, loc, loop⟩, as⟩
  · exact Ext.refl _
  rcases loop with _ | ⟨f, el, i⟩
  · rcases todo with _ | ⟨st, ss⟩
    · exact Ext.refl _
    have hst := ht _ (List.mem_cons_self ..) st (List.mem_cons_self ..)
    simp only [HThread.step]
    cases st with
    | list f zt p e el =>
      simp only [HThread.exec]
      split
      · exact (Good.writeInt _ _ _).ext b
      · split
        · exact (Good.writeInt _ _ _).ext b
        · exact (Good.writeInt _ _ _).ext b
        · exact Ext.refl _
    | obj f =>
      simp only [HThread.exec]
      split
      · rw [enter_buf]; exact Ext.refl _
      · exact Ext.refl _
    | objOpt f =>
      simp only [HThread.exec]
      split
      · exact Ext.refl _
      · rw [enter_buf]; exact Ext.refl _
      · exact Ext.refl _
    | setLen f x y =>
      simp only [HThread.exec, hencStmt]
      rcases loc x with _ | p
      · exact Ext.refl _
      · rcases loc y with _ | q <;> exact Ext.refl _
    | checksum f alg =>
      simp only [HThread.exec, hencStmt]
      rcases Registry.getService w.svc alg with _ | sv <;> exact Ext.refl _
    | num f p e =>
      simp only [HThread.exec, hencStmt]
      rcases h.field r f with _ | _ | _ | _ | _ <;> first | exact Ext.refl _ | exact (Good.writeVal _ _ _).ext b
    | fixed f k pad left =>
      simp only [HThread.exec, hencStmt]
      rcases h.field r f with _ | _
      · exact Ext.refl _
      · exact (Good.writeFixedVal _ _ _ _).ext b
    | dyn f zt p e =>
      simp only [HThread.exec, hencStmt]
      rcases h.field r f with _ | _
      · exact Ext.refl _
      · exact (Good.writeDynVal _ _ _ _).ext b
    | patch x f p e => cases hst
    | save x => exact Ext.refl _
    | zero p e => exact (Good.writeInt _ _ _).ext b
  · simp only [HThread.step, HThread.iterate]
    split
    · exact Ext.refl _
    · split
      · exact Ext.refl _
      · cases el with
        | obj => rw [enter_buf]; exact Ext.refl _
        | num p e => exact (Good.writeVal _ _ _).ext b
        | fixed k pad left => exact (Good.writeFixedVal _ _ _ _).ext b
        | dyn zt p e => exact (Good.writeDynVal _ _ _ _).ext b

/-- A thread that works on objects of `P`, none of them a frame, only appends. -/
theorem go_ext (w : World) (n : Nat) {P : Nat → Prop} (k : Nat) : ∀ (h : Heap) (t : HThread), ClosedUnder P h →
    (∀ q, P q → ∀ c ys, h[q]? = some (.msg c ys) → hasComputed c = false) → Own P h t → Ext t.buf (HThread.go w n k (h, t)).2.buf := by
  induction k with
  | zero => intro h t _ _ _; exact Ext.refl _
  | succ k ih =>
    intro h t hcl hf ho
    obtain ⟨-, f2, f3⟩ := step_form w n hcl (fun q _ => rfl) t ho
    have hsame : ∀ q, P q → (t.step w n h).1[q]? = h[q]? := fun q hq => f3.others q (fun _ => hf q hq)
    refine Ext.trans (step_ext w n h t fun a ha s hs => ?_) (ih (t.step w n h).1 (t.step w n h).2 (f3.closed hcl) (fun q hq c ys => by
      rw [hsame q hq]; exact hf q hq c ys) (f2.chg f3.chg))
    obtain ⟨h1, c, ⟨ys, h2⟩, h3⟩ := ho a ha
    have := List.all_eq_true.mp (no_patch c (hf _ h1 c ys h2)) s (h3 s hs)
    simpa using this

end FinProto
